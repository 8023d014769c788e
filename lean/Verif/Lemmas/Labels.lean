import Verif.Spec.Labels
import Verif.Lemmas.Basic
import Verif.Lemmas.Compile

/-!
# Labels and the jumps to them
-/

namespace Verif
open Spec Stack

/-! ### The list of jumps to be patched -/

/-- The cells from `h` on are linked, each holding the address of the next, the last holding 0. -/
def Links (d : DataSpace) : Nat → List Nat → Prop
  | h, [] => h = 0
  | h, a :: l => h = a ∧ Links d (d.cellAt a).toNat l

theorem Links.congr {d e : DataSpace} : ∀ {l : List Nat} {h : Nat}, Links d h l →
    (∀ a ∈ l, e.cellAt a = d.cellAt a) → Links e h l
  | [], _, hl, _ => hl
  | a :: l, _, hl, h => ⟨hl.1, by
    rw [h a (by simp)]
    exact hl.2.congr fun b hb => h b (by simp [hb])⟩

theorem spread_length : ∀ {l : List Nat} {lo hi : Nat}, l.Pairwise (fun a b => b + 8 ≤ a) → lo ≤ hi →
    (∀ a ∈ l, lo ≤ a ∧ a + 8 ≤ hi) → lo + 8 * l.length ≤ hi
  | [], _, _, _, h, _ => by simpa using h
  | a :: l, lo, hi, hp, _, h => by
    obtain ⟨h1, h2⟩ := h a (by simp)
    rw [List.pairwise_cons] at hp
    have := spread_length hp.2 h1 fun b hb => ⟨(h b (by simp [hb])).1, hp.1 b hb⟩
    simp only [List.length_cons]; omega

theorem labelLoop_last {v fuel h : Nat} {d : DataSpace} (h1 : d.valid h 8) (hz : d.cellAt h = 0) :
    labelLoop v (fuel + 1) h d = .ok (d.setCell h (toCell v)) := by
  have e1 : d.getCell h = .ok (d.cellAt h) := if_pos h1
  have e2 : d.putCell (toCell v) h = .ok (d.setCell h (toCell v)) := if_pos h1
  rw [labelLoop, e1, Except.ok_bind', e2, Except.ok_bind', if_pos hz]

theorem labelLoop_next {v fuel h : Nat} {d : DataSpace} (h1 : d.valid h 8) (hz : d.cellAt h ≠ 0) :
    labelLoop v (fuel + 1) h d = labelLoop v fuel (d.cellAt h).toNat (d.setCell h (toCell v)) := by
  have e1 : d.getCell h = .ok (d.cellAt h) := if_pos h1
  have e2 : d.putCell (toCell v) h = .ok (d.setCell h (toCell v)) := if_pos h1
  rw [labelLoop, e1, Except.ok_bind', e2, Except.ok_bind', if_neg hz]

theorem labelLoop_ok (v : Nat) {l : List Nat} : ∀ {fuel h : Nat} {d : DataSpace}, l ≠ [] → l.length ≤ fuel → Links d h l →
    l.Pairwise (fun a b => b + 8 ≤ a) → (∀ a ∈ l, 0 < a ∧ d.start ≤ a ∧ a + 8 ≤ d.limit) →
    ∃ e, labelLoop v fuel h d = .ok e ∧ e.start = d.start ∧ e.cap = d.cap ∧ e.len = d.len ∧
      (∀ a ∈ l, e.cellAt a = toCell v) ∧ ∀ x, (∀ a ∈ l, x < a ∨ a + 8 ≤ x) → e.bytes x = d.bytes x := by
  induction l with
  | nil => intro _ _ _ h; exact absurd rfl h
  | cons a l ih =>
    intro fuel h d _ hf hl hp hv
    obtain ⟨rfl, hl⟩ := hl
    obtain ⟨h0, h1, h2⟩ := hv h (by simp)
    rw [List.pairwise_cons] at hp
    obtain ⟨hgap, hp⟩ := hp
    have hval : d.valid h 8 := ⟨h1, h2⟩
    obtain ⟨fuel, rfl⟩ : ∃ f, fuel = f + 1 := ⟨fuel - 1, by simp only [List.length_cons] at hf; omega⟩
    by_cases hn : l = []
    · subst hn
      have hz : d.cellAt h = 0 := by
        have : (d.cellAt h).toNat = 0 := hl
        exact BitVec.eq_of_toNat_eq this
      refine ⟨_, labelLoop_last hval hz, rfl, rfl, rfl, ?_, ?_⟩
      · simp only [List.mem_singleton]
        rintro b rfl
        exact DataSpace.cellAt_setCell d b _
      · intro x hx
        exact DataSpace.setCell_bytes_out (hx h (by simp))
    · have hz : d.cellAt h ≠ 0 := by
        intro e
        obtain ⟨b, l, rfl⟩ := List.exists_cons_of_ne_nil hn
        have hb : (d.cellAt h).toNat = b := hl.1
        have hb0 := (hv b (by simp)).1
        rw [e] at hb
        have : (0 : Cell).toNat = 0 := rfl
        omega
      obtain ⟨e, g1, g2, g3, g4, g5, g6⟩ := ih (fuel := fuel) (h := (d.cellAt h).toNat)
        (d := d.setCell h (toCell v)) hn (by simp only [List.length_cons] at hf; omega)
        (hl.congr fun c hc => DataSpace.cellAt_setCell_ne (.inl (hgap c hc))) hp
        (fun c hc => hv c (List.mem_cons_of_mem _ hc))
      refine ⟨e, (labelLoop_next hval hz).trans g1, g2, g3, g4, ?_, ?_⟩
      · intro c hc
        rw [List.mem_cons] at hc
        rcases hc with rfl | hc
        · rw [← DataSpace.cellAt_setCell d c (toCell v)]
          refine DataSpace.cellAt_congr fun x k1 k2 => g6 x fun y hy => ?_
          have := hgap y hy
          omega
        · exact g5 c hc
      · intro x hx
        rw [g6 x fun c hc => hx c (List.mem_cons_of_mem _ hc)]
        exact DataSpace.setCell_bytes_out (hx h (by simp))

/-! ### What holds while labels are being used -/

/-- The cells of the jumps to label `n`, latest first. -/
def jumpsTo (J : List Jump) (n : Nat) : List Nat := (J.filter fun j => j.label = n).map (·.cell)

structure LabelInv (J : List Jump) (P : List (Nat × Nat)) (s : VM) : Prop where
  space : Space s.ds
  branch : s.refs.branch < 2 ^ 64
  lit : s.refs.lit < 2 ^ 64
  toR : s.refs.toR < 2 ^ 64
  order : J.Pairwise fun j k => k.cell + 8 ≤ j.first
  bounds : ∀ j ∈ J, s.ds.start ≤ j.first ∧ j.first + 8 ≤ j.cell ∧ j.cell + 8 ≤ s.ds.here
  code : ∀ j ∈ J, j.Code s.refs s.ds
  forward : ∀ n, n ∈ s.forward ↔ (∃ j ∈ J, j.label = n) ∧ ∀ a, (n, a) ∉ P
  resolved : ∀ n, n ∈ s.resolved ↔ ∃ a, (n, a) ∈ P
  unique : ∀ n a b, (n, a) ∈ P → (n, b) ∈ P → a = b
  placed : ∀ n a, (n, a) ∈ P → s.labels[n]? = some a ∧ a ≤ s.ds.here
  links : ∀ n, n ∈ s.forward → ∃ h, s.labels[n]? = some h ∧ Links s.ds h (jumpsTo J n)
  done : ∀ j ∈ J, ∀ a, (j.label, a) ∈ P → CellIs s.ds j.cell a

theorem Jump.code_congr {R : Refs} {d e : DataSpace} {j : Jump} (h : j.Code R d) (hc : j.first + 8 ≤ j.cell)
    (hb : ∀ x, j.first ≤ x → x < j.cell → e.bytes x = d.bytes x) : j.Code R e := by
  have hcell : ∀ b, j.first ≤ b → b + 8 ≤ j.cell → e.cellAt b = d.cellAt b := fun b h1 h2 =>
    DataSpace.cellAt_congr fun x k1 k2 => hb x (by omega) (by omega)
  obtain ⟨h1, h2⟩ := h
  unfold Jump.first at hc hcell
  refine ⟨?_, fun k => ?_⟩
  · unfold CellIs at *
    rw [hcell _ (by split <;> omega) (by split at hc <;> omega)]; exact h1
  · obtain ⟨k1, k2, k3⟩ := h2 k
    simp only [k, if_true] at hc hcell
    unfold CellIs at *
    rw [hcell _ (by omega) (by omega), hcell _ (by omega) (by omega), hcell _ (by omega) (by omega)]
    exact ⟨k1, k2, k3⟩

theorem mem_jumpsTo {J : List Jump} {n a : Nat} : a ∈ jumpsTo J n ↔ ∃ j ∈ J, j.label = n ∧ j.cell = a := by
  simp [jumpsTo, and_assoc]

theorem jumpsTo_order {J : List Jump} {n : Nat} (h : J.Pairwise fun j k => k.cell + 8 ≤ j.first)
    (hc : ∀ j ∈ J, j.first + 8 ≤ j.cell) : (jumpsTo J n).Pairwise fun a b => b + 8 ≤ a := by
  unfold jumpsTo
  rw [List.pairwise_map]
  refine (h.filter _).imp_of_mem ?_
  intro j k hj _ hjk
  have := hc j (List.mem_filter.mp hj).1
  omega

/-- Other things happen. -/
theorem LabelInv.other {J : List Jump} {P : List (Nat × Nat)} {s t : VM} (h : LabelInv J P s) (h1 : t.labels = s.labels)
    (h2 : t.forward = s.forward) (h3 : t.resolved = s.resolved) (h4 : t.refs = s.refs) (h5 : t.ds.start = s.ds.start)
    (h6 : t.ds.cap = s.ds.cap) (h7 : s.ds.len ≤ t.ds.len) (h8 : t.ds.len ≤ t.ds.cap)
    (h9 : ∀ j ∈ J, ∀ x, j.first ≤ x → x < j.cell + 8 → t.ds.bytes x = s.ds.bytes x) : LabelInv J P t := by
  have hh : s.ds.here ≤ t.ds.here := by simp only [DataSpace.here]; omega
  have hcell : ∀ j ∈ J, t.ds.cellAt j.cell = s.ds.cellAt j.cell := fun j hj => by
    have := (h.bounds j hj).2.1
    exact DataSpace.cellAt_congr fun x k1 k2 => h9 j hj x (by omega) (by omega)
  refine ⟨⟨by rw [h5, h6]; exact h.space.small, h8⟩, by rw [h4]; exact h.branch, by rw [h4]; exact h.lit,
    by rw [h4]; exact h.toR, h.order, ?_, ?_, by rw [h2]; exact h.forward, by rw [h3]; exact h.resolved, h.unique, ?_, ?_, ?_⟩
  · intro j hj
    have := h.bounds j hj
    rw [h5]; omega
  · intro j hj
    have := (h.bounds j hj).2.1
    rw [h4]
    exact Jump.code_congr (h.code j hj) this fun x k1 k2 => h9 j hj x k1 (by omega)
  · intro n a ha
    have := h.placed n a ha
    rw [h1]; exact ⟨this.1, by omega⟩
  · intro n hn
    rw [h2] at hn
    obtain ⟨p, hp, hl⟩ := h.links n hn
    refine ⟨p, by rw [h1]; exact hp, hl.congr fun a ha => ?_⟩
    obtain ⟨j, hj, -, rfl⟩ := mem_jumpsTo.mp ha
    exact hcell j hj
  · intro j hj a ha
    have := h.done j hj a ha
    unfold CellIs at *
    rw [hcell j hj]; exact this

/-- A jump has been laid down. Its target cell holds the address of the label, or the address of the jump before it that
waits for the same label, or 0. -/
theorem LabelInv.jump {J : List Jump} {P : List (Nat × Nat)} {s t : VM} (h : LabelInv J P s) {j : Jump} {v : Nat}
    (hlab : j.label < s.labels.length)
    (h0 : j.first = s.ds.here) (h1 : j.first + 8 ≤ j.cell) (h2 : j.cell + 8 = t.ds.here) (h3 : t.refs = s.refs)
    (h4 : t.ds.start = s.ds.start) (h5 : t.ds.cap = s.ds.cap) (h6 : t.ds.len ≤ t.ds.cap)
    (h7 : ∀ x, x < s.ds.here → t.ds.bytes x = s.ds.bytes x) (h8 : j.Code t.refs t.ds) (h9 : t.ds.cellAt j.cell = toCell v)
    (h10 : t.resolved = s.resolved)
    (h11 : (j.label ∈ s.forward ∧ s.labels[j.label]? = some v ∧ t.labels = s.labels.set j.label j.cell ∧
        t.forward = s.forward) ∨
      (j.label ∉ s.forward ∧ j.label ∈ s.resolved ∧ s.labels[j.label]? = some v ∧ t.labels = s.labels ∧
        t.forward = s.forward) ∨
      (j.label ∉ s.forward ∧ j.label ∉ s.resolved ∧ v = 0 ∧ t.labels = s.labels.set j.label j.cell ∧
        t.forward = bitAdd s.forward j.label)) : LabelInv (j :: J) P t := by
  have hb : ∀ k ∈ J, k.cell + 8 ≤ s.ds.here := fun k hk => (h.bounds k hk).2.2
  have hcell : ∀ k ∈ J, t.ds.cellAt k.cell = s.ds.cellAt k.cell := fun k hk => by
    have := hb k hk
    exact DataSpace.cellAt_congr fun x k1 k2 => h7 x (by omega)
  have hsm := h.space.small
  have hle : t.ds.here ≤ s.ds.start + s.ds.cap := by simp only [DataSpace.here]; omega
  have hother : ∀ n, n ≠ j.label → t.labels[n]? = s.labels[n]? := fun n hn => by
    rcases h11 with ⟨-, -, e, -⟩ | ⟨-, -, -, e, -⟩ | ⟨-, -, -, e, -⟩ <;> rw [e]
    · exact List.getElem?_set_ne (Ne.symm hn)
    · exact List.getElem?_set_ne (Ne.symm hn)
  have hfor : ∀ n, n ∈ t.forward ↔ n ∈ s.forward ∨ (n = j.label ∧ j.label ∉ s.resolved) := fun n => by
    have hdis : j.label ∈ s.forward → j.label ∉ s.resolved := fun k1 k2 => by
      obtain ⟨a, ha⟩ := (h.resolved _).mp k2
      exact ((h.forward _).mp k1).2 a ha
    rcases h11 with ⟨k, -, -, e⟩ | ⟨-, k, -, -, e⟩ | ⟨k, k', -, -, e⟩
    · rw [e]
      constructor
      · exact .inl
      · rintro (hn | ⟨rfl, -⟩)
        · exact hn
        · exact k
    · rw [e]
      constructor
      · exact .inl
      · rintro (hn | ⟨rfl, hn⟩)
        · exact hn
        · exact absurd k hn
    · rw [e, bitAdd]
      simp [k, k', or_comm]
  refine ⟨⟨by rw [h4, h5]; exact hsm, h6⟩, by rw [h3]; exact h.branch, by rw [h3]; exact h.lit, by rw [h3]; exact h.toR,
    ?_, ?_, ?_, ?_, by rw [h10]; exact h.resolved, h.unique, ?_, ?_, ?_⟩
  · rw [List.pairwise_cons]
    exact ⟨fun k hk => by rw [h0]; exact hb k hk, h.order⟩
  · intro k hk
    rw [List.mem_cons] at hk
    rcases hk with rfl | hk
    · exact ⟨by rw [h0, h4]; simp [DataSpace.here], h1, by omega⟩
    · have := h.bounds k hk
      rw [h4]; omega
  · intro k hk
    rw [List.mem_cons] at hk
    rcases hk with rfl | hk
    · exact h8
    · have := h.bounds k hk
      rw [h3]
      exact Jump.code_congr (h.code k hk) this.2.1 fun x k1 k2 => h7 x (by omega)
  · intro n
    rw [hfor, h.forward n, h.resolved]
    simp only [List.mem_cons]
    constructor
    · rintro (⟨⟨k, hk, rfl⟩, hn⟩ | ⟨rfl, hn⟩)
      · exact ⟨⟨k, .inr hk, rfl⟩, hn⟩
      · exact ⟨⟨j, .inl rfl, rfl⟩, fun a ha => hn ⟨a, ha⟩⟩
    · rintro ⟨⟨k, rfl | hk, rfl⟩, hn⟩
      · exact .inr ⟨rfl, fun ⟨a, ha⟩ => hn a ha⟩
      · exact .inl ⟨⟨k, hk, rfl⟩, hn⟩
  · intro n a ha
    have hp := h.placed n a ha
    have hne : n = j.label → j.label ∉ s.forward := fun e k => by
      subst e
      exact ((h.forward _).mp k).2 a ha
    refine ⟨?_, by omega⟩
    by_cases hn : n = j.label
    · have hr : j.label ∈ s.resolved := (h.resolved _).mpr ⟨a, hn ▸ ha⟩
      rcases h11 with ⟨k, -⟩ | ⟨-, -, -, e, -⟩ | ⟨-, k, -⟩
      · exact absurd k (hne hn)
      · rw [e]; exact hp.1
      · exact absurd hr k
    · rw [hother n hn]; exact hp.1
  · intro n hn
    have hold : ∀ h', Links s.ds h' (jumpsTo J n) → Links t.ds h' (jumpsTo J n) := fun h' hl => hl.congr fun a ha => by
      obtain ⟨k, hk, -, rfl⟩ := mem_jumpsTo.mp ha
      exact hcell k hk
    by_cases e : n = j.label
    · subst e
      have hcons : jumpsTo (j :: J) j.label = j.cell :: jumpsTo J j.label := by simp [jumpsTo]
      rw [hcons]
      rcases h11 with ⟨k, k1, k2, -⟩ | ⟨k, k1, -, -, k2⟩ | ⟨k, k1, rfl, k2, -⟩
      · refine ⟨j.cell, by rw [k2]; exact List.getElem?_set_self hlab, rfl, ?_⟩
        obtain ⟨h', g1, g2⟩ := h.links _ k
        rw [k1] at g1
        cases g1
        have hv : v < 2 ^ 64 := by
          cases hJ : jumpsTo J j.label with
          | nil => rw [hJ] at g2; rw [show v = 0 from g2]; decide
          | cons a l =>
            rw [hJ] at g2
            obtain ⟨m, hm, -, e⟩ := mem_jumpsTo.mp (show a ∈ jumpsTo J j.label by rw [hJ]; simp)
            have := hb m hm
            have := g2.1
            simp only [DataSpace.here] at *
            omega
        rw [h9, toNat_toCell hv]
        exact hold _ g2
      · rw [k2] at hn
        exact absurd hn k
      · refine ⟨j.cell, by rw [k2]; exact List.getElem?_set_self hlab, rfl, ?_⟩
        have : jumpsTo J j.label = [] := by
          rw [List.eq_nil_iff_forall_not_mem]
          intro a ha
          obtain ⟨m, hm, e, -⟩ := mem_jumpsTo.mp ha
          refine k ((h.forward _).mpr ⟨⟨m, hm, e⟩, fun b hb => k1 ((h.resolved _).mpr ⟨b, hb⟩)⟩)
        rw [this, h9]
        rfl
    · have hcons : jumpsTo (j :: J) n = jumpsTo J n := by simp [jumpsTo, Ne.symm e]
      rw [hcons]
      have hn' : n ∈ s.forward := by
        rcases (hfor n).mp hn with k | ⟨k, -⟩
        · exact k
        · exact absurd k e
      obtain ⟨h', g1, g2⟩ := h.links n hn'
      exact ⟨h', by rw [hother n e]; exact g1, hold _ g2⟩
  · intro k hk a ha
    rw [List.mem_cons] at hk
    rcases hk with rfl | hk
    · have hp := h.placed _ a ha
      have hr : k.label ∈ s.resolved := (h.resolved _).mpr ⟨a, ha⟩
      have hnf : k.label ∉ s.forward := fun e => ((h.forward _).mp e).2 a ha
      rcases h11 with ⟨e, -⟩ | ⟨-, -, e, -⟩ | ⟨-, e, -⟩
      · exact absurd e hnf
      · rw [hp.1] at e
        cases e
        unfold CellIs
        rw [h9]
        refine toNat_toCell ?_
        have := hp.2
        simp only [DataSpace.here] at *
        omega
      · exact absurd hr e
    · unfold CellIs
      rw [hcell k hk]
      exact h.done k hk a ha

theorem pairwise_both {α : Type} {r : α → α → Prop} : ∀ {l : List α}, l.Pairwise r → (∀ {x y}, r x y → r y x) → (∀ x, r x x) →
    ∀ {x y}, x ∈ l → y ∈ l → r x y
  | [], _, _, _, _, _, h, _ => by simp at h
  | a :: l, hp, hs, hr, x, y, hx, hy => by
    rw [List.pairwise_cons] at hp
    rw [List.mem_cons] at hx hy
    rcases hx with rfl | hx <;> rcases hy with rfl | hy
    · exact hr _
    · exact hp.1 y hy
    · exact hs (hp.1 x hx)
    · exact pairwise_both hp.2 hs hr hx hy

/-- A label has been placed. -/
theorem LabelInv.place {J : List Jump} {P : List (Nat × Nat)} {s t : VM} (h : LabelInv J P s) {n : Nat}
    (hlab : n < s.labels.length) (hnew : ∀ a, (n, a) ∉ P) (h1 : t.refs = s.refs) (h2 : t.ds.start = s.ds.start)
    (h3 : t.ds.cap = s.ds.cap) (h4 : t.ds.len = s.ds.len)
    (h5 : ∀ a ∈ jumpsTo J n, t.ds.cellAt a = toCell s.ds.here)
    (h6 : ∀ x, (∀ a ∈ jumpsTo J n, x < a ∨ a + 8 ≤ x) → t.ds.bytes x = s.ds.bytes x)
    (h7 : t.labels = s.labels.set n s.ds.here) (h8 : ∀ m, m ∈ t.forward ↔ m ∈ s.forward ∧ m ≠ n)
    (h9 : ∀ m, m ∈ t.resolved ↔ m ∈ s.resolved ∨ m = n) : LabelInv J ((n, s.ds.here) :: P) t := by
  have hhere : t.ds.here = s.ds.here := by simp only [DataSpace.here, h2, h4]
  have hsep : ∀ j ∈ J, ∀ k ∈ J, j = k ∨ k.cell + 8 ≤ j.first ∨ j.cell + 8 ≤ k.first := by
    have : J.Pairwise fun j k => j = k ∨ k.cell + 8 ≤ j.first ∨ j.cell + 8 ≤ k.first :=
      h.order.imp fun e => .inr (.inl e)
    intro j hj k hk
    exact pairwise_both this (fun e => by rcases e with rfl | e | e <;> simp [*]) (fun x => .inl rfl) hj hk
  have hcode : ∀ j ∈ J, ∀ x, j.first ≤ x → x < j.cell → t.ds.bytes x = s.ds.bytes x := by
    intro j hj x k1 k2
    refine h6 x fun a ha => ?_
    obtain ⟨k, hk, -, rfl⟩ := mem_jumpsTo.mp ha
    have := (h.bounds k hk).2.1
    rcases hsep j hj k hk with rfl | e | e <;> omega
  have hcell : ∀ j ∈ J, j.label ≠ n → t.ds.cellAt j.cell = s.ds.cellAt j.cell := by
    intro j hj hne
    refine DataSpace.cellAt_congr fun x k1 k2 => h6 x fun a ha => ?_
    obtain ⟨k, hk, e, rfl⟩ := mem_jumpsTo.mp ha
    have := (h.bounds k hk).2.1
    have := (h.bounds j hj).2.1
    rcases hsep j hj k hk with rfl | e | e
    · exact absurd e hne
    · omega
    · omega
  have hsm := h.space.small
  have hin := h.space.inside
  refine ⟨⟨by rw [h2, h3]; exact hsm, by rw [h3, h4]; exact hin⟩, by rw [h1]; exact h.branch, by rw [h1]; exact h.lit,
    by rw [h1]; exact h.toR, h.order, by rw [h2, hhere]; exact h.bounds, ?_, ?_, ?_, ?_, ?_, ?_, ?_⟩
  · intro j hj
    rw [h1]
    exact Jump.code_congr (h.code j hj) (h.bounds j hj).2.1 (hcode j hj)
  · intro m
    rw [h8, h.forward]
    simp only [List.mem_cons, Prod.mk.injEq, not_or, not_and]
    constructor
    · rintro ⟨⟨k1, k2⟩, k3⟩
      exact ⟨k1, fun a => ⟨fun e => absurd e k3, k2 a⟩⟩
    · rintro ⟨k1, k2⟩
      exact ⟨⟨k1, fun a => (k2 a).2⟩, fun e => (k2 _).1 e rfl⟩
  · intro m
    rw [h9, h.resolved]
    simp only [List.mem_cons, Prod.mk.injEq]
    constructor
    · rintro (⟨a, ha⟩ | rfl)
      · exact ⟨a, .inr ha⟩
      · exact ⟨_, .inl ⟨rfl, rfl⟩⟩
    · rintro ⟨a, ⟨rfl, -⟩ | ha⟩
      · exact .inr rfl
      · exact .inl ⟨a, ha⟩
  · intro m a b ha hb
    simp only [List.mem_cons, Prod.mk.injEq] at ha hb
    rcases ha with ⟨rfl, rfl⟩ | ha <;> rcases hb with ⟨e, rfl⟩ | hb
    · rfl
    · exact absurd hb (hnew b)
    · exact absurd (e ▸ ha) (hnew a)
    · exact h.unique m a b ha hb
  · intro m a ha
    rw [h7, hhere]
    simp only [List.mem_cons, Prod.mk.injEq] at ha
    rcases ha with ⟨rfl, rfl⟩ | ha
    · exact ⟨List.getElem?_set_self hlab, Nat.le_refl _⟩
    · have hne : n ≠ m := fun e => hnew a (e ▸ ha)
      rw [List.getElem?_set_ne hne]
      exact h.placed m a ha
  · intro m hm
    obtain ⟨hm, hne⟩ := (h8 m).mp hm
    obtain ⟨p, k1, k2⟩ := h.links m hm
    refine ⟨p, by rw [h7, List.getElem?_set_ne (Ne.symm hne)]; exact k1, k2.congr fun a ha => ?_⟩
    obtain ⟨k, hk, e, rfl⟩ := mem_jumpsTo.mp ha
    exact hcell k hk (e ▸ hne)
  · intro j hj a ha
    simp only [List.mem_cons, Prod.mk.injEq] at ha
    rcases ha with ⟨e, rfl⟩ | ha
    · unfold CellIs
      rw [h5 _ (mem_jumpsTo.mpr ⟨j, hj, e, rfl⟩)]
      refine toNat_toCell ?_
      simp only [DataSpace.here]; omega
    · unfold CellIs
      rw [hcell j hj fun e => hnew a (e ▸ ha)]
      exact h.done j hj a ha

/-! ### The words -/

theorem branch_ok {c : Ctx} {s : VM} (hd : Space s.ds) (h : s.ds.here + 16 ≤ s.ds.limit) (b : Nat) :
    compileBranch c b s =
      .ok (s.ds.here + 16, { s with ds := s.ds.emit2 (toCell s.refs.branch) (toCell b) }) := by
  have e := gen_branch (c := c) (cs := s.task.c) s hd h b
  have e1 : ∀ d, s.code (d, s.task.c) = { s with ds := d } := fun d => by
    unfold VM.code
    rw [show ({ s.task with c := s.task.c } : Task) = s.task from rfl, VM.setTask_task]
  rw [e1, e1] at e
  exact e

theorem cell_ok {c : Ctx} {s : VM} (hd : Space s.ds) (h : s.ds.here + 8 ≤ s.ds.limit) (v : Cell) :
    compileCell c v s = .ok ((), { s with ds := s.ds.emit v }) := by
  rw [compileCell, dsOp_ok (emit_ok hd v h)]

theorem word_ok {c : Ctx} {s : VM} (hd : Space s.ds) (h : s.ds.here + 8 ≤ s.ds.limit) (i : Nat) :
    compileWord c i s = .ok ((), { s with ds := s.ds.emit (toCell i) }) := cell_ok (c := c) hd h _

theorem labelAt_ok {s : VM} {n p : Nat} (h : s.labels[n]? = some p) : labelAt n s = .ok (p, s) := by
  unfold labelAt; rw [h]

theorem setLabel_ok {s : VM} {n v : Nat} (h : n < s.labels.length) :
    setLabel n v s = .ok ((), { s with labels := s.labels.set n v }) := if_pos h

/-- What `goto` does. -/
theorem immGoto_run {c : Ctx} {s : VM} {n : Cell} {l : List Cell} (hs : Space s.ds) (hd : data s = n :: l) (h0 : 0 < n.toNat)
    (hn : n.toNat < s.labels.length) (room : s.ds.here + 16 ≤ s.ds.limit) :
    ∃ v lb fw, immGoto c s = .ok ((), { setData s l with
        ds := s.ds.emit2 (toCell s.refs.branch) (toCell v), labels := lb, forward := fw }) ∧
      ((n.toNat ∈ s.forward ∧ s.labels[n.toNat]? = some v ∧ lb = s.labels.set n.toNat (s.ds.here + 8) ∧
        fw = s.forward) ∨
      (n.toNat ∉ s.forward ∧ n.toNat ∈ s.resolved ∧ s.labels[n.toNat]? = some v ∧ lb = s.labels ∧
        fw = s.forward) ∨
      (n.toNat ∉ s.forward ∧ n.toNat ∉ s.resolved ∧ v = 0 ∧ lb = s.labels.set n.toNat (s.ds.here + 8) ∧
        fw = bitAdd s.forward n.toNat)) := by
  have e1 : s.task.s.pop.1 = n := (items_eq_iff.mp hd).pop_fst
  have e2 : s.setTask { s.task with s := s.task.s.pop.2 } = setData s l := by
    rw [pop_holding hd]; rfl
  obtain ⟨p, hp⟩ : ∃ p, s.labels[n.toNat]? = some p := ⟨_, List.getElem?_eq_getElem hn⟩
  have hget : getVM (setData s l) = .ok (setData s l, setData s l) := rfl
  have hb : ∀ b, compileBranch c b (setData s l) = _ := fun b => branch_ok (c := c) (s := setData s l) hs room b
  have hu : ∀ (oc : Bool) , usub oc (s.ds.here + 16) 8 = .ok (s.ds.here + 8) := fun oc => by
    rw [usub_ok (by omega)]; rfl
  have hmem : ∀ k : List Nat, k.contains n.toNat = true ↔ n.toNat ∈ k := fun k => by simp
  unfold immGoto
  simp only [M.bind_apply, sPop_apply, e1, e2]
  simp only [hget, show (setData s l).forward = s.forward from rfl, show (setData s l).resolved = s.resolved from rfl]
  rw [if_pos ⟨h0, hn⟩]
  by_cases hf : n.toNat ∈ s.forward
  · rw [if_pos ((hmem _).mpr hf)]
    refine ⟨p, _, _, ?_, .inl ⟨hf, hp, rfl, rfl⟩⟩
    simp only [M.bind_apply]
    rw [labelAt_ok (s := setData s l) hp]
    simp only [hb]
    rw [show (setData s l).ds.here = s.ds.here from rfl, hu, liftE_ok]
    simp only
    rw [setLabel_ok (by exact hn)]
    rfl
  · rw [if_neg (fun e => hf ((hmem _).mp e))]
    by_cases hr : n.toNat ∈ s.resolved
    · rw [if_pos ((hmem _).mpr hr)]
      refine ⟨p, _, _, ?_, .inr (.inl ⟨hf, hr, hp, rfl, rfl⟩)⟩
      simp only [M.bind_apply]
      rw [labelAt_ok (s := setData s l) hp]
      simp only [hb]
      rfl
    · rw [if_neg (fun e => hr ((hmem _).mp e))]
      refine ⟨0, _, _, ?_, .inr (.inr ⟨hf, hr, rfl, rfl, rfl⟩)⟩
      simp only [M.bind_apply]
      simp only [hb]
      rw [show (setData s l).ds.here = s.ds.here from rfl, hu, liftE_ok]
      simp only
      rw [setLabel_ok (by exact hn)]
      rfl

theorem emit_here_le {d : DataSpace} (h : Space d) (k : d.here + 16 ≤ d.limit) (v w : Cell) :
    (d.emit2 v w).len ≤ (d.emit2 v w).cap := (h.emit2 k v w).inside

theorem goto_step {c : Ctx} {J : List Jump} {P : List (Nat × Nat)} {s : VM} {n : Cell} {l : List Cell}
    (h : LabelInv J P s) (hd : data s = n :: l) (h0 : 0 < n.toNat)
    (hn : n.toNat < s.labels.length) (room : s.ds.here + 16 ≤ s.ds.limit) :
    ∃ t, immGoto c s = .ok ((), t) ∧ LabelInv (⟨n.toNat, s.ds.here + 8, false⟩ :: J) P t ∧ data t = l ∧
      t.lastError = s.lastError ∧ t.ds.here = s.ds.here + 16 ∧ t.labels.length = s.labels.length ∧ t.ds.limit = s.ds.limit := by
  have hlen : l.length < 256 := by have := items_length_lt s.task.s; rw [show s.task.s.items = n :: l from hd] at this; simp at this; omega
  obtain ⟨v, lb, fw, e1, e2⟩ := immGoto_run (c := c) h.space hd h0 hn room
  refine ⟨_, e1, h.jump (j := ⟨n.toNat, s.ds.here + 8, false⟩) (v := v) hn (by simp [Jump.first]) (by simp [Jump.first]) (by simp) rfl rfl rfl
    (emit_here_le h.space room _ _) (fun x hx => DataSpace.emit2_bytes _ _ _ hx) ⟨?_, by simp⟩ ?_ rfl e2,
    (show data (setData s l) = l from data_setData hlen), rfl, by simp, ?_, rfl⟩
  · show CellIs (s.ds.emit2 _ _) (s.ds.here + 8 - 8) _
    rw [Nat.add_sub_cancel, CellIs, DataSpace.emit2_fst, toNat_toCell h.branch]
    rfl
  · exact DataSpace.emit2_snd _ _ _
  · rcases e2 with ⟨-, -, e, -⟩ | ⟨-, -, -, e, -⟩ | ⟨-, -, -, e, -⟩ <;> simp [e]

theorem call_step {c : Ctx} {J : List Jump} {P : List (Nat × Nat)} {s : VM} {n : Cell} {l : List Cell}
    (h : LabelInv J P s) (hd : data s = n :: l) (h0 : 0 < n.toNat)
    (hn : n.toNat < s.labels.length) (room : s.ds.here + 40 ≤ s.ds.limit) :
    ∃ t, immCall c s = .ok ((), t) ∧ LabelInv (⟨n.toNat, s.ds.here + 32, true⟩ :: J) P t ∧ data t = l ∧
      t.lastError = s.lastError ∧ t.ds.here = s.ds.here + 40 ∧ t.labels.length = s.labels.length ∧ t.ds.limit = s.ds.limit := by
  have hlen : l.length < 256 := by have := items_length_lt s.task.s; rw [show s.task.s.items = n :: l from hd] at this; simp at this; omega
  have hs1 := h.space.emit (v := toCell s.refs.lit) (by omega)
  have hs2 := hs1.emit (v := toCell (s.ds.here + 40)) (by simp; omega)
  have hs3 := hs2.emit (v := toCell s.refs.toR) (by simp; omega)
  obtain ⟨d, hdd⟩ : ∃ d, d = ((s.ds.emit (toCell s.refs.lit)).emit (toCell (s.ds.here + 40))).emit (toCell s.refs.toR) := ⟨_, rfl⟩
  have hdh : d.here = s.ds.here + 24 := by rw [hdd]; simp
  have hdl : d.limit = s.ds.limit := by rw [hdd]; simp
  have hds : Space d := by rw [hdd]; exact hs3
  have hdb : ∀ x, x < s.ds.here → d.bytes x = s.ds.bytes x := fun x hx => by
    rw [hdd, DataSpace.emit_bytes _ _ (by simp; omega), DataSpace.emit_bytes _ _ (by simp; omega), DataSpace.emit_bytes _ _ (by omega)]
  have hc1 : d.cellAt s.ds.here = toCell s.refs.lit := by
    rw [hdd, DataSpace.emit_cell_ne _ _ (by simp), DataSpace.emit_cell_ne _ _ (by simp), DataSpace.emit_cell]
  have hc2 : d.cellAt (s.ds.here + 8) = toCell (s.ds.here + 40) := by
    rw [hdd, DataSpace.emit_cell_ne _ _ (by simp), ← DataSpace.emit_here s.ds (toCell s.refs.lit), DataSpace.emit_cell]
  have hc3 : d.cellAt (s.ds.here + 16) = toCell s.refs.toR := by
    have : s.ds.here + 16 = ((s.ds.emit (toCell s.refs.lit)).emit (toCell (s.ds.here + 40))).here := by simp
    rw [hdd, this, DataSpace.emit_cell]
  have e0 : immCall c s = immGoto c { s with ds := d } := by
    unfold immCall
    simp only [M.bind_apply]
    rw [show getHere s = .ok (s.ds.here, s) from rfl]
    simp only [compileInteger, M.bind_apply, getRefs_apply]
    rw [word_ok h.space (by omega)]
    simp only
    rw [cell_ok (by exact hs1) (by simp; omega)]
    simp only
    rw [word_ok (by exact hs2) (by simp; omega)]
    rw [hdd]
  obtain ⟨v, lb, fw, e1, e2⟩ := immGoto_run (c := c) (s := { s with ds := d }) hds hd h0 hn (by rw [hdh, hdl]; omega)
  rw [hdh] at e2
  have hsm := h.space.small
  have hlm : s.ds.limit = s.ds.start + s.ds.cap := rfl
  have hfst : d.start = s.ds.start := by rw [hdd]; rfl
  have hcap : d.cap = s.ds.cap := by rw [hdd]; rfl
  have hold : ∀ b, b + 8 ≤ d.here → (d.emit2 (toCell s.refs.branch) (toCell v)).cellAt b = d.cellAt b := fun b hb =>
    DataSpace.cellAt_congr fun x k1 k2 => DataSpace.emit2_bytes _ _ _ (by omega)
  refine ⟨_, e0.trans e1, h.jump (j := ⟨n.toNat, s.ds.here + 32, true⟩) (v := v) hn (by simp [Jump.first]) (by simp [Jump.first])
    (by simp [hdh]) rfl hfst hcap
    (emit_here_le hds (by rw [hdh, hdl]; omega) _ _) (fun x hx => ?_) ⟨?_, fun _ => ⟨?_, ?_, ?_⟩⟩ ?_ rfl e2,
    (show data (setData s l) = l from data_setData hlen), rfl, by simp [hdh], ?_, hdl⟩
  · show (d.emit2 _ _).bytes x = _
    rw [DataSpace.emit2_bytes _ _ _ (by omega), hdb x hx]
  · show CellIs (d.emit2 _ _) (s.ds.here + 32 - 8) _
    rw [show s.ds.here + 32 - 8 = d.here by omega, CellIs, DataSpace.emit2_fst, toNat_toCell h.branch]
    rfl
  · show CellIs (d.emit2 _ _) (s.ds.here + 32 - 32) _
    rw [show s.ds.here + 32 - 32 = s.ds.here by omega, CellIs, hold _ (by omega), hc1, toNat_toCell h.lit]
    rfl
  · show CellIs (d.emit2 _ _) (s.ds.here + 32 - 24) (s.ds.here + 32 + 8)
    rw [show s.ds.here + 32 - 24 = s.ds.here + 8 by omega, CellIs, hold _ (by omega), hc2, toNat_toCell (by omega)]
  · show CellIs (d.emit2 _ _) (s.ds.here + 32 - 16) _
    rw [show s.ds.here + 32 - 16 = s.ds.here + 16 by omega, CellIs, hold _ (by omega), hc3, toNat_toCell h.toR]
    rfl
  · show (d.emit2 _ _).cellAt (s.ds.here + 32) = _
    rw [show s.ds.here + 32 = d.here + 8 by omega]
    exact DataSpace.emit2_snd _ _ _
  · rcases e2 with ⟨-, -, e, -⟩ | ⟨-, -, -, e, -⟩ | ⟨-, -, -, e, -⟩ <;> simp [e]

theorem label_step {c : Ctx} {J : List Jump} {P : List (Nat × Nat)} {s : VM} {n : Cell} {l : List Cell}
    (h : LabelInv J P s) (hd : data s = n :: l) (h0 : 0 < n.toNat)
    (hn : n.toNat < s.labels.length) (hnew : ∀ a, (n.toNat, a) ∉ P) :
    ∃ t, immLabel c s = .ok ((), t) ∧ LabelInv J ((n.toNat, s.ds.here) :: P) t ∧ data t = l ∧
      t.lastError = s.lastError ∧ t.ds.here = s.ds.here ∧ t.labels.length = s.labels.length ∧ t.ds.limit = s.ds.limit := by
  have hlen : l.length < 256 := by have := items_length_lt s.task.s; rw [show s.task.s.items = n :: l from hd] at this; simp at this; omega
  have e1 : s.task.s.pop.1 = n := (items_eq_iff.mp hd).pop_fst
  have e2 : s.setTask { s.task with s := s.task.s.pop.2 } = setData s l := by
    rw [pop_holding hd]; rfl
  have hget : getVM (setData s l) = .ok (setData s l, setData s l) := rfl
  have hmem : ∀ k : List Nat, k.contains n.toNat = true ↔ n.toNat ∈ k := fun k => by simp
  have hnr : n.toNat ∉ s.resolved := fun e => by
    obtain ⟨a, ha⟩ := (h.resolved _).mp e
    exact hnew a ha
  have hbit : ∀ m, m ∈ bitAdd s.resolved n.toNat ↔ m ∈ s.resolved ∨ m = n.toNat := fun m => by
    simp [bitAdd, hnr, or_comm]
  unfold immLabel
  simp only [M.bind_apply, sPop_apply, e1, e2]
  simp only [hget, show (setData s l).forward = s.forward from rfl, show (setData s l).resolved = s.resolved from rfl]
  rw [if_pos ⟨h0, hn⟩]
  by_cases hf : n.toNat ∈ s.forward
  · rw [if_pos ((hmem _).mpr hf)]
    obtain ⟨p, hp, hl⟩ := h.links _ hf
    have hne : jumpsTo J n.toNat ≠ [] := by
      obtain ⟨⟨j, hj, e⟩, -⟩ := (h.forward _).mp hf
      exact List.ne_nil_of_mem (mem_jumpsTo.mpr ⟨j, hj, e, rfl⟩)
    have hord := jumpsTo_order (n := n.toNat) h.order fun j hj => (h.bounds j hj).2.1
    have hv : ∀ a ∈ jumpsTo J n.toNat, 0 < a ∧ s.ds.start ≤ a ∧ a + 8 ≤ s.ds.limit := fun a ha => by
      obtain ⟨j, hj, -, rfl⟩ := mem_jumpsTo.mp ha
      have := h.bounds j hj
      have := h.space.inside
      simp only [DataSpace.here, DataSpace.limit] at *
      omega
    have hle := spread_length hord (show s.ds.start ≤ s.ds.limit by simp [DataSpace.limit]) fun a ha => (hv a ha).2
    obtain ⟨e, g1, g2, g3, g4, g5, g6⟩ := labelLoop_ok s.ds.here (fuel := s.ds.cap + 1) hne
      (by simp only [DataSpace.limit] at hle; omega) hl hord hv
    simp only [M.bind_apply]
    rw [labelAt_ok (s := setData s l) hp]
    simp only
    rw [dsOp_ok (s := setData s l) (d := e) (by exact g1)]
    simp only
    rw [setLabel_ok (by exact hn)]
    refine ⟨_, rfl, h.place hn hnew rfl g2 g3 g4 g5 g6 rfl ?_ hbit, (show data (setData s l) = l from data_setData hlen), rfl, ?_, by simp; rfl, ?_⟩
    · intro m
      show m ∈ bitRemove s.forward n.toNat ↔ _
      simp [bitRemove]
    · show e.here = s.ds.here
      simp only [DataSpace.here, g2, g4]
    · show e.limit = s.ds.limit
      simp only [DataSpace.limit, g2, g3]
  · rw [if_neg (fun e => hf ((hmem _).mp e)), if_neg (fun e => hnr ((hmem _).mp e))]
    have hno : jumpsTo J n.toNat = [] := by
      rw [List.eq_nil_iff_forall_not_mem]
      intro a ha
      obtain ⟨m, hm, e, -⟩ := mem_jumpsTo.mp ha
      exact hf ((h.forward _).mpr ⟨⟨m, hm, e⟩, hnew⟩)
    simp only [M.bind_apply]
    rw [setLabel_ok (by exact hn)]
    refine ⟨_, rfl, h.place hn hnew rfl rfl rfl rfl ?_ (fun _ _ => rfl) rfl ?_ hbit, (show data (setData s l) = l from data_setData hlen), rfl, rfl, by simp; rfl, rfl⟩
    · rw [hno]; simp
    · intro m
      exact ⟨fun hm => ⟨hm, fun e => hf (e ▸ hm)⟩, And.left⟩

theorem labels_inv {c : Ctx} {J : List Jump} {P : List (Nat × Nat)} {s : VM} (h : Labels c J P s) : LabelInv J P s := by
  induction h with
  | @start s t h1 h2 h3 h4 h5 h6 =>
    have e : t = { s with forward := [], resolved := [] } := by cases h1; rfl
    subst e
    exact ⟨⟨h2, h3⟩, h4, h5, h6, .nil, by simp, by simp, by simp, by simp, by simp, by simp, by simp, by simp⟩
  | goto _ hd h0 hn room e ih =>
    obtain ⟨t, e', h, -⟩ := goto_step (c := c) ih hd h0 hn room
    cases e.symm.trans e'
    exact h
  | call _ hd h0 hn room e ih =>
    obtain ⟨t, e', h, -⟩ := call_step (c := c) ih hd h0 hn room
    cases e.symm.trans e'
    exact h
  | label _ hd h0 hn hnew e ih =>
    obtain ⟨t, e', h, -⟩ := label_step (c := c) ih hd h0 hn hnew
    cases e.symm.trans e'
    exact h
  | other _ h1 h2 h3 h4 h5 h6 h7 h8 h9 ih => exact ih.other h1 h2 h3 h4 h5 h6 h7 h8 h9

end Verif
