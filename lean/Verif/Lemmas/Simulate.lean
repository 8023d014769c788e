import Verif.Lemmas.RunCode

/-!
# The simulation: compiled code does what the structured program means
-/

namespace Verif
open Spec Stack

section
variable {R : Refs} {wl : Wordlist} {lv lo hi : Nat} {k : Fin 5} {d : DataSpace} {cfg : Cfg} {n : Nat}

/-- Where the code of a job is, and where it ends. -/
def JobAt (R : Refs) (lv lo : Nat) (d : DataSpace) : Job → Nat → Nat → Prop
  | .stmt p, a, e => p.At R lv d a ∧ e = p.next a
  | .arms r, a, e => r.At R lv d e a ∧ e = r.next a
  | .turn plus tok p _ _, a, e => lo ≤ tok ∧ tok + 8 = a ∧ CellIs d tok e ∧ p.At R lv d a ∧
      CellIs d (p.next a) (if plus then R.plusLoopRt else R.loopRt) ∧ CellIs d (p.next a + 8) a ∧
      e = p.next a + 16

/-- The instruction pointer is at the number `i`. -/
def Facing (lo hi : Nat) (d : DataSpace) (i : Nat) (s : VM) : Prop :=
  lo ≤ pc s ∧ pc s + 8 ≤ hi ∧ CellIs d (pc s) i

/-- Where the machine is when a job ends. -/
def Ends (R : Refs) (lv lo hi : Nat) (d : DataSpace) (e : Nat) : Out → VM → Prop
  | .normal, s => pc s = e
  | .exit, s => Facing lo hi d R.exit s
  | .leave, s => Facing lo hi d lv s
  | .call i, s => Facing lo hi d i s

/-- The code leads from `s1` to a machine like `t`. -/
def Sim (R : Refs) (lv : Nat) (wl : Wordlist) (lo hi : Nat) (k : Fin 5) (d : DataSpace) (cfg : Cfg)
    (n e : Nat) (o : Out) (s1 t : VM) : Prop :=
  Loaded R lv wl lo hi k d t ∧ ∃ t1, Steps cfg n s1 t1 ∧ Like t1 t ∧ Ends R lv lo hi d e o t1

theorem Sim.step {e : Nat} {o : Out} {s1 u t : VM} (h : Steps cfg n s1 u)
    (x : Sim R lv wl lo hi k d cfg n e o u t) : Sim R lv wl lo hi k d cfg n e o s1 t := by
  obtain ⟨h1, t1, h2, h3, h4⟩ := x
  exact ⟨h1, t1, h.trans h2, h3, h4⟩

theorem Sim.next {e e' : Nat} {o : Out} {s1 t u : VM} (x : Sim R lv wl lo hi k d cfg n e .normal s1 t)
    (h : ∀ t1, Like t1 t → Loaded R lv wl lo hi k d t → pc t1 = e → Sim R lv wl lo hi k d cfg n e' o t1 u) :
    Sim R lv wl lo hi k d cfg n e' o s1 u := by
  obtain ⟨h1, t1, h2, h3, h4⟩ := x
  exact (h t1 h3 h1 h4).step h2

theorem Sim.stop {e e' : Nat} {o : Out} {s1 t : VM} (x : Sim R lv wl lo hi k d cfg n e o s1 t)
    (h : o ≠ .normal) : Sim R lv wl lo hi k d cfg n e' o s1 t := by
  obtain ⟨h1, t1, h2, h3, h4⟩ := x
  refine ⟨h1, t1, h2, h3, ?_⟩
  cases o <;> first | exact absurd rfl h | exact h4

/-- A job followed by a way from its end to another place. -/
theorem Sim.then {e e' : Nat} {o : Out} {s1 t : VM} (x : Sim R lv wl lo hi k d cfg n e o s1 t)
    (h : ∀ t1, Like t1 t → Loaded R lv wl lo hi k d t → pc t1 = e →
      ∃ u, Steps cfg n t1 u ∧ Like u t ∧ pc u = e') : Sim R lv wl lo hi k d cfg n e' o s1 t := by
  by_cases ho : o = .normal
  · subst ho
    refine x.next fun t1 k1 k2 k3 => ?_
    obtain ⟨u, l1, l2, l3⟩ := h t1 k1 k2 k3
    exact ⟨k2, u, l1, l2, l3⟩
  · exact x.stop ho

theorem LikeStack.holding2 {α : Type} (st : Stack α) {l m : List α} (hl : l.length ≤ capacity)
    (hm : m.length < 256) : LikeStack (holding (holding st l) m) (holding st m) := by
  refine ⟨rfl, rfl, ?_⟩
  intro i hi
  have hc : capacity = 64 := rfl
  simp only [holding, BitVec.toNat_ofNat] at hi ⊢
  split
  · rfl
  · rw [if_neg (by omega)]

theorem Spec.Like.setData2 {u t : VM} {l m : List Cell} (h : Like u (setData (setData t l) m))
    (hl : l.length ≤ capacity) (hm : m.length < 256) : Like u (setData t m) := by
  refine h.trans ⟨t.task.st.ip, t.task.st.wp, holding (holding t.task.s l) m, t.task.r, t.task.f, ?_,
    ?_, ?_, ?_⟩
  · simpa [setData] using LikeStack.holding2 t.task.s hl hm
  · simpa [setData] using LikeStack.refl _
  · simpa [setData] using LikeStack.refl _
  · simp [setData]

theorem data_setData {s : VM} {l : List Cell} (h : l.length < 256) : data (setData s l) = l := by
  simp [data, setData, holding_items _ h]

theorem Spec.Loaded.setData {s : VM} (h : Loaded R lv wl lo hi k d s) (l : List Cell) :
    Loaded R lv wl lo hi k d (setData s l) := h.setTask _
theorem Spec.Loaded.setFloats {s : VM} (h : Loaded R lv wl lo hi k d s) (l : List F64) :
    Loaded R lv wl lo hi k d (setFloats s l) := h.setTask _
theorem Spec.Loaded.setRet {s : VM} (h : Loaded R lv wl lo hi k d s) (l : List Cell) :
    Loaded R lv wl lo hi k d (setRet s l) := h.setTask _

/-- The comparison at an `OF`, when the values are equal. -/
theorem run_of_match {s1 s : VM} {a : Nat} (hl : Like s1 s) (h : Loaded R lv wl lo hi k d s)
    (g : Region d lo hi) (hp : pc s1 = a) (h1 : lo ≤ a) (h2 : a + 40 ≤ hi) (c1 : CellIs d a R.over)
    (c2 : CellIs d (a + 8) R.equal) (c3 : CellIs d (a + 16) R.zeroBranch)
    (c4 : CellIs d (a + 32) R.drop) {l : List Cell} {x : Cell} (hd : data s = x :: x :: l)
    (hr : l.length + 2 < capacity) :
    ∃ u, Steps cfg (n + 1) s1 u ∧ Like u (setData s l) ∧ pc u = a + 40 := by
  have hc : capacity = 64 := rfl
  obtain ⟨u1, a1, a2, a3⟩ := run_over (cfg := cfg) (n := n) hl h g hp h1 (by omega) c1 hd hr
  obtain ⟨u2, b1, b2, b3⟩ := run_equal (cfg := cfg) (n := n) a2 (h.setData _) g a3 (by omega) (by omega) c2
    (data_setData (by simp; omega)) (by simp; omega)
  replace b2 := b2.setData2 (by simp; omega) (by simp; omega)
  obtain ⟨u3, e1, e2, e3⟩ := run_nonzero (cfg := cfg) (n := n) b2 (h.setData _) g b3 (by omega) (by omega)
    (by simpa [Nat.add_assoc] using c3) (data_setData (by simp; omega)) (by simp)
  replace e2 := e2.setData2 (by simp; omega) (by simp; omega)
  obtain ⟨u4, f1, f2, f3⟩ := run_drop (cfg := cfg) (n := n) e2 (h.setData _) g e3 (by omega) (by omega)
    (by simpa [Nat.add_assoc] using c4) (data_setData (by simp; omega))
  replace f2 := f2.setData2 (by simp; omega) (by omega)
  exact ⟨u4, ((a1.trans b1).trans e1).trans f1, f2, by omega⟩

/-- The comparison at an `OF`, when the values differ. -/
theorem run_of_next {s1 s : VM} {a b : Nat} (hl : Like s1 s) (h : Loaded R lv wl lo hi k d s)
    (g : Region d lo hi) (hp : pc s1 = a) (h1 : lo ≤ a) (h2 : a + 40 ≤ hi) (c1 : CellIs d a R.over)
    (c2 : CellIs d (a + 8) R.equal) (c3 : CellIs d (a + 16) R.zeroBranch)
    (c4 : CellIs d (a + 24) b) {l : List Cell} {x y : Cell} (hd : data s = y :: x :: l) (hne : x ≠ y)
    (hr : l.length + 2 < capacity) :
    ∃ u, Steps cfg (n + 1) s1 u ∧ Like u (setData s (x :: l)) ∧ pc u = b := by
  have hc : capacity = 64 := rfl
  obtain ⟨u1, a1, a2, a3⟩ := run_over (cfg := cfg) (n := n) hl h g hp h1 (by omega) c1 hd hr
  obtain ⟨u2, b1, b2, b3⟩ := run_equal (cfg := cfg) (n := n) a2 (h.setData _) g a3 (by omega) (by omega) c2
    (data_setData (by simp; omega)) (by simp; omega)
  replace b2 := b2.setData2 (by simp; omega) (by simp; omega)
  rw [if_neg (Ne.symm hne)] at b2
  obtain ⟨u3, e1, e2, e3⟩ := run_zero (cfg := cfg) (n := n) b2 (h.setData _) g b3 (by omega) (by omega)
    (by simpa [Nat.add_assoc] using c3) (by simpa [Nat.add_assoc] using c4) (data_setData (by simp; omega))
  replace e2 := e2.setData2 (by simp; omega) (by simp; omega)
  exact ⟨u3, (a1.trans b1).trans e1, e2, e3⟩

/-- Compiled code does what the structured program means. -/
theorem simulate {W : Nat → VM → VM → Prop} (g : Region d lo hi)
    (hW : ∀ i s t, Loaded R lv wl lo hi k d s → W i s t →
      Acts cfg (n + 1) i s t ∧ Loaded R lv wl lo hi k d t)
    {j : Job} {s t : VM} {o : Out} (hs : Sem W j s o t) :
    ∀ (a e : Nat) (s1 : VM), JobAt R lv lo d j a e → lo ≤ a → e ≤ hi → Loaded R lv wl lo hi k d s →
      Like s1 s → pc s1 = a → Sim R lv wl lo hi k d cfg (n + 1) e o s1 t := by
  induction hs with
  | skip =>
    intro a e s1 hj h1 h2 h3 hl hp
    obtain ⟨_, rfl⟩ := hj
    exact ⟨h3, s1, .refl _, hl, hp⟩
  | @seq p q s t u o _ _ ih1 ih2 =>
    intro a e s1 hj h1 h2 h3 hl hp
    obtain ⟨⟨hj1, hj2⟩, rfl⟩ := hj
    simp only [Stmt.next] at h2 ⊢
    have := q.le_next (p.next a); have := p.le_next a
    exact (ih1 a _ s1 ⟨hj1, rfl⟩ h1 (by omega) h3 hl hp).next fun t1 k1 k2 k3 =>
      ih2 _ _ t1 ⟨hj2, rfl⟩ (by omega) h2 k2 k1 k3
  | @seqStop p q s t o _ ho ih =>
    intro a e s1 hj h1 h2 h3 hl hp
    obtain ⟨⟨hj1, hj2⟩, rfl⟩ := hj
    simp only [Stmt.next] at h2 ⊢
    have := q.le_next (p.next a); have := p.le_next a
    exact (ih a _ s1 ⟨hj1, rfl⟩ h1 (by omega) h3 hl hp).stop ho
  | @word i s t w =>
    intro a e s1 hj h1 h2 h3 hl hp
    obtain ⟨hj, rfl⟩ := hj
    obtain ⟨w1, w2⟩ := hW i s t h3 w
    obtain ⟨s2, t1, e1, _, e2, e3, e4⟩ := w1 (s1.at (a + 8) s1.task.st.wp) (hl.at _ _)
      (by have := g.upper; have := g.small; simp only [Stmt.next] at h2; simp [pc]; omega)
    refine ⟨w2, t1, (Steps.one (step_word (h3.like hl) g hp h1 h2 hj e1)).trans e2, e3, ?_⟩
    exact e4.trans (by simp [pc, Stmt.next])
  | @call i s =>
    intro a e s1 hj h1 h2 h3 hl hp
    obtain ⟨hj, rfl⟩ := hj
    subst hp
    exact ⟨h3, s1, .refl _, hl, h1, h2, hj⟩
  | lit hr =>
    intro a e s1 hj h1 h2 h3 hl hp
    obtain ⟨⟨hj1, hj2⟩, rfl⟩ := hj
    obtain ⟨u, u1, u2, u3⟩ := run_lit (cfg := cfg) (n := n) hl h3 g hp h1 h2 hj1 hj2 hr
    exact ⟨h3.setData _, u, u1, u2, u3⟩
  | flt hr =>
    intro a e s1 hj h1 h2 h3 hl hp
    obtain ⟨⟨hj1, hj2⟩, rfl⟩ := hj
    obtain ⟨u, u1, u2, u3⟩ := run_flt (cfg := cfg) (n := n) hl h3 g hp h1 h2 hj1 hj2 hr
    exact ⟨h3.setFloats _, u, u1, u2, u3⟩
  | str hr =>
    intro a e s1 hj h1 h2 h3 hl hp
    obtain ⟨⟨hj1, hj2, hj3, rfl⟩, rfl⟩ := hj
    obtain ⟨u, u1, u2, u3⟩ := run_str (cfg := cfg) (n := n) hl h3 g hp h1 h2 hj1 hj2 hj3 hr
    exact ⟨h3.setData _, u, u1, u2, u3⟩
  | exit =>
    intro a e s1 hj h1 h2 h3 hl hp
    obtain ⟨hj, rfl⟩ := hj
    subst hp
    exact ⟨h3, s1, .refl _, hl, h1, h2, hj⟩
  | leave =>
    intro a e s1 hj h1 h2 h3 hl hp
    obtain ⟨hj, rfl⟩ := hj
    subst hp
    exact ⟨h3, s1, .refl _, hl, h1, h2, hj⟩
  | @ifTrue p s t o f l hd hf _ ih =>
    intro a e s1 hj h1 h2 h3 hl hp
    obtain ⟨⟨c1, c2, c3⟩, rfl⟩ := hj
    simp only [Stmt.next] at h2 ⊢
    have := p.le_next (a + 16)
    obtain ⟨u, u1, u2, u3⟩ := run_nonzero (cfg := cfg) (n := n) hl h3 g hp h1 (by omega) c1 hd hf
    exact (ih _ _ u ⟨c3, rfl⟩ (by omega) h2 (h3.setData _) u2 u3).step u1
  | @ifFalse p s l hd =>
    intro a e s1 hj h1 h2 h3 hl hp
    obtain ⟨⟨c1, c2, c3⟩, rfl⟩ := hj
    simp only [Stmt.next] at h2 ⊢
    have := p.le_next (a + 16)
    obtain ⟨u, u1, u2, u3⟩ := run_zero (cfg := cfg) (n := n) hl h3 g hp h1 (by omega) c1 c2 hd
    exact ⟨h3.setData _, u, u1, u2, u3⟩
  | @elseTrue p q s t o f l hd hf _ ih =>
    intro a e s1 hj h1 h2 h3 hl hp
    obtain ⟨⟨c1, c2, c3, c4, c5, c6⟩, rfl⟩ := hj
    simp only [Stmt.next] at h2 ⊢
    have := p.le_next (a + 16); have := q.le_next (p.next (a + 16) + 16)
    obtain ⟨u, u1, u2, u3⟩ := run_nonzero (cfg := cfg) (n := n) hl h3 g hp h1 (by omega) c1 hd hf
    exact ((ih _ _ u ⟨c3, rfl⟩ (by omega) (by omega) (h3.setData _) u2 u3).step u1).then
      fun t1 k1 k2 k3 => run_branch k1 k2 g k3 (by omega) (by omega) c4 c5
  | @elseFalse p q s t o l hd _ ih =>
    intro a e s1 hj h1 h2 h3 hl hp
    obtain ⟨⟨c1, c2, c3, c4, c5, c6⟩, rfl⟩ := hj
    simp only [Stmt.next] at h2 ⊢
    have := p.le_next (a + 16); have := q.le_next (p.next (a + 16) + 16)
    obtain ⟨u, u1, u2, u3⟩ := run_zero (cfg := cfg) (n := n) hl h3 g hp h1 (by omega) c1 c2 hd
    exact (ih _ _ u ⟨c6, rfl⟩ (by omega) (by omega) (h3.setData _) u2 u3).step u1
  | @untilEnd p s t f l _ hd hf ih =>
    intro a e s1 hj h1 h2 h3 hl hp
    obtain ⟨⟨c1, c2, c3⟩, rfl⟩ := hj
    simp only [Stmt.next] at h2 ⊢
    have := p.le_next a
    refine (ih _ _ s1 ⟨c1, rfl⟩ h1 (by omega) h3 hl hp).next fun t1 k1 k2 k3 => ?_
    obtain ⟨u, u1, u2, u3⟩ := run_nonzero (cfg := cfg) (n := n) k1 k2 g k3 (by omega) (by omega) c2 hd hf
    exact ⟨k2.setData _, u, u1, u2, u3⟩
  | @untilNext p s t u o l _ hd _ ih1 ih2 =>
    intro a e s1 hj h1 h2 h3 hl hp
    have hj0 := hj
    obtain ⟨⟨c1, c2, c3⟩, rfl⟩ := hj
    have h2' := h2
    simp only [Stmt.next] at h2'
    have := p.le_next a
    refine (ih1 _ _ s1 ⟨c1, rfl⟩ h1 (by omega) h3 hl hp).next fun t1 k1 k2 k3 => ?_
    obtain ⟨v, u1, u2, u3⟩ := run_zero (cfg := cfg) (n := n) k1 k2 g k3 (by omega) (by omega) c2 c3 hd
    exact (ih2 _ _ v hj0 h1 h2 (k2.setData _) u2 u3).step u1
  | @untilStop p s t o _ ho ih =>
    intro a e s1 hj h1 h2 h3 hl hp
    obtain ⟨⟨c1, c2, c3⟩, rfl⟩ := hj
    simp only [Stmt.next] at h2 ⊢
    exact (ih _ _ s1 ⟨c1, rfl⟩ h1 (by omega) h3 hl hp).stop ho
  | @againNext p s t u o _ _ ih1 ih2 =>
    intro a e s1 hj h1 h2 h3 hl hp
    have hj0 := hj
    obtain ⟨⟨c1, c2, c3⟩, rfl⟩ := hj
    have h2' := h2
    simp only [Stmt.next] at h2'
    have := p.le_next a
    refine (ih1 _ _ s1 ⟨c1, rfl⟩ h1 (by omega) h3 hl hp).next fun t1 k1 k2 k3 => ?_
    obtain ⟨v, u1, u2, u3⟩ := run_branch (cfg := cfg) (n := n) k1 k2 g k3 (by omega) (by omega) c2 c3
    exact (ih2 _ _ v hj0 h1 h2 k2 u2 u3).step u1
  | @againStop p s t o _ ho ih =>
    intro a e s1 hj h1 h2 h3 hl hp
    obtain ⟨⟨c1, c2, c3⟩, rfl⟩ := hj
    simp only [Stmt.next] at h2 ⊢
    exact (ih _ _ s1 ⟨c1, rfl⟩ h1 (by omega) h3 hl hp).stop ho
  | @whileEnd p q s t l _ hd ih =>
    intro a e s1 hj h1 h2 h3 hl hp
    obtain ⟨⟨c1, c2, c3, c4, c5, c6⟩, rfl⟩ := hj
    simp only [Stmt.next] at h2 ⊢
    have := p.le_next a; have := q.le_next (p.next a + 16)
    refine (ih _ _ s1 ⟨c1, rfl⟩ h1 (by omega) h3 hl hp).next fun t1 k1 k2 k3 => ?_
    obtain ⟨u, u1, u2, u3⟩ := run_zero (cfg := cfg) (n := n) k1 k2 g k3 (by omega) (by omega) c2 c3 hd
    exact ⟨k2.setData _, u, u1, u2, u3⟩
  | @whileNext p q s t u v o f l _ hd hf _ _ ih1 ih2 ih3 =>
    intro a e s1 hj h1 h2 h3 hl hp
    have hj0 := hj
    obtain ⟨⟨c1, c2, c3, c4, c5, c6⟩, rfl⟩ := hj
    have h2' := h2
    simp only [Stmt.next] at h2'
    have := p.le_next a; have := q.le_next (p.next a + 16)
    refine (ih1 _ _ s1 ⟨c1, rfl⟩ h1 (by omega) h3 hl hp).next fun t1 k1 k2 k3 => ?_
    obtain ⟨w, u1, u2, u3⟩ := run_nonzero (cfg := cfg) (n := n) k1 k2 g k3 (by omega) (by omega) c2 hd hf
    refine ((ih2 _ _ w ⟨c4, rfl⟩ (by omega) (by omega) (k2.setData _) u2 u3).step u1).next
      fun t2 l1 l2 l3 => ?_
    obtain ⟨x, v1, v2, v3⟩ := run_branch (cfg := cfg) (n := n) l1 l2 g l3 (by omega) (by omega) c5 c6
    exact (ih3 _ _ x hj0 h1 h2 l2 v2 v3).step v1
  | @whileStop p q s t o _ ho ih =>
    intro a e s1 hj h1 h2 h3 hl hp
    obtain ⟨⟨c1, c2, c3, c4, c5, c6⟩, rfl⟩ := hj
    simp only [Stmt.next] at h2 ⊢
    have := p.le_next a; have := q.le_next (p.next a + 16)
    exact (ih _ _ s1 ⟨c1, rfl⟩ h1 (by omega) h3 hl hp).stop ho
  | @whileStop2 p q s t u o f l _ hd hf _ ho ih1 ih2 =>
    intro a e s1 hj h1 h2 h3 hl hp
    obtain ⟨⟨c1, c2, c3, c4, c5, c6⟩, rfl⟩ := hj
    simp only [Stmt.next] at h2 ⊢
    have := p.le_next a; have := q.le_next (p.next a + 16)
    refine (ih1 _ _ s1 ⟨c1, rfl⟩ h1 (by omega) h3 hl hp).next fun t1 k1 k2 k3 => ?_
    obtain ⟨w, u1, u2, u3⟩ := run_nonzero (cfg := cfg) (n := n) k1 k2 g k3 (by omega) (by omega) c2 hd hf
    exact ((ih2 _ _ w ⟨c4, rfl⟩ (by omega) (by omega) (k2.setData _) u2 u3).step u1).stop ho
  | @loopNone plus tok p s x l hd =>
    intro a e s1 hj h1 h2 h3 hl hp
    obtain ⟨⟨c0, c1, c2, c3, c4, c5⟩, rfl⟩ := hj
    simp only [Stmt.next] at h2 ⊢
    have := p.le_next (a + 16)
    obtain ⟨u, u1, u2, u3⟩ := run_qdo_none (cfg := cfg) (n := n) hl h3 g hp h1 (by omega) c1 c2 hd
    exact ⟨h3.setData _, u, u1, u2, u3⟩
  | @loop ask plus tok p s t o lim start l hd hne hr _ ih =>
    intro a e s1 hj h1 h2 h3 hl hp
    obtain ⟨⟨rfl, c1, c2, c3, c4, c5⟩, rfl⟩ := hj
    simp only [Stmt.next] at h2 ⊢
    have := p.le_next (a + 16)
    have hu : ∃ u, Steps cfg (n + 1) s1 u ∧ Like u (setRet (setData s l)
        (params lim start ++ BitVec.ofNat 64 (a + 8) :: ret s)) ∧ pc u = a + 16 := by
      cases ask with
      | false => exact run_do hl h3 g hp h1 (by omega) c1 hd hr
      | true => exact run_qdo hl h3 g hp h1 (by omega) c1 hd (hne rfl) hr
    obtain ⟨u, u1, u2, u3⟩ := hu
    exact (ih _ _ u ⟨by omega, rfl, c2, c3, c4, c5, rfl⟩ (by omega) h2 ((h3.setData _).setRet _) u2
      u3).step u1
  | @loopEnd tok p s t lim idx l _ hd hne ih =>
    intro a e s1 hj h1 h2 h3 hl hp
    obtain ⟨c0, c1, c2, c3, c4, c5, rfl⟩ := hj
    have := p.le_next a
    refine (ih _ _ s1 ⟨c3, rfl⟩ h1 (by omega) h3 hl hp).next fun t1 k1 k2 k3 => ?_
    obtain ⟨u, u1, u2, u3⟩ := run_loop_end (cfg := cfg) (n := n) k1 k2 g k3 (by omega) (by omega) c4 hd hne
    exact ⟨k2.setRet _, u, u1, u2, u3⟩
  | @loopNext tok p s t u o lim idx l _ hd hne _ ih1 ih2 =>
    intro a e s1 hj h1 h2 h3 hl hp
    have hj0 := hj
    obtain ⟨c0, c1, c2, c3, c4, c5, rfl⟩ := hj
    have := p.le_next a
    refine (ih1 _ _ s1 ⟨c3, rfl⟩ h1 (by omega) h3 hl hp).next fun t1 k1 k2 k3 => ?_
    obtain ⟨v, u1, u2, u3⟩ := run_loop_next (cfg := cfg) (n := n) k1 k2 g k3 (by omega) (by omega) c4 c5
      hd hne
    exact (ih2 _ _ v hj0 h1 h2 (k2.setRet _) u2 u3).step u1
  | @plusEnd tok p s t lim idx x l ks _ hd hk hne ih =>
    intro a e s1 hj h1 h2 h3 hl hp
    obtain ⟨c0, c1, c2, c3, c4, c5, rfl⟩ := hj
    have := p.le_next a
    refine (ih _ _ s1 ⟨c3, rfl⟩ h1 (by omega) h3 hl hp).next fun t1 k1 k2 k3 => ?_
    obtain ⟨u, u1, u2, u3⟩ := run_plus_end (cfg := cfg) (n := n) k1 k2 g k3 (by omega) (by omega) c4 hd
      hk hne
    exact ⟨(k2.setData _).setRet _, u, u1, u2, u3⟩
  | @plusNext tok p s t u o lim idx x l ks _ hd hk hne _ ih1 ih2 =>
    intro a e s1 hj h1 h2 h3 hl hp
    have hj0 := hj
    obtain ⟨c0, c1, c2, c3, c4, c5, rfl⟩ := hj
    have := p.le_next a
    refine (ih1 _ _ s1 ⟨c3, rfl⟩ h1 (by omega) h3 hl hp).next fun t1 k1 k2 k3 => ?_
    obtain ⟨v, u1, u2, u3⟩ := run_plus_next (cfg := cfg) (n := n) k1 k2 g k3 (by omega) (by omega) c4 c5
      hd hk hne
    exact (ih2 _ _ v hj0 h1 h2 ((k2.setData _).setRet _) u2 u3).step u1
  | @loopLeave plus tok p s t lim idx x y l _ hd hlen hcan ih =>
    intro a e s1 hj h1 h2 h3 hl hp
    obtain ⟨c0, c1, c2, c3, c4, c5, rfl⟩ := hj
    have := p.le_next a
    obtain ⟨k1, t1, k2, k3, k4, k5, k6⟩ := ih _ _ s1 ⟨c3, rfl⟩ h1 (by omega) h3 hl hp
    obtain ⟨u, u1, u2, u3⟩ := run_leave (cfg := cfg) (n := n) k3 k1 g rfl k4 k5 k6 c0 (by omega) c2 hd hlen
      hcan
    exact ⟨k1.setRet _, u, k2.trans u1, u2, u3⟩
  | @loopStop plus tok p s t o lim idx _ ho _ ih =>
    intro a e s1 hj h1 h2 h3 hl hp
    obtain ⟨c0, c1, c2, c3, c4, c5, rfl⟩ := hj
    have := p.le_next a
    exact (ih _ _ s1 ⟨c3, rfl⟩ h1 (by omega) h3 hl hp).stop ho
  | case _ ih =>
    intro a e s1 hj h1 h2 h3 hl hp
    obtain ⟨hj, rfl⟩ := hj
    exact ih _ _ s1 ⟨hj, rfl⟩ h1 h2 h3 hl hp
  | @default p s t x l _ hd ih =>
    intro a e s1 hj h1 h2 h3 hl hp
    obtain ⟨⟨c1, c2⟩, rfl⟩ := hj
    simp only [Arms.next] at h2 ⊢
    have := p.le_next a
    refine (ih _ _ s1 ⟨c1, rfl⟩ h1 (by omega) h3 hl hp).next fun t1 k1 k2 k3 => ?_
    obtain ⟨u, u1, u2, u3⟩ := run_drop (cfg := cfg) (n := n) k1 k2 g k3 (by omega) (by omega) c2 hd
    exact ⟨k2.setData _, u, u1, u2, u3⟩
  | @defaultStop p s t o _ ho ih =>
    intro a e s1 hj h1 h2 h3 hl hp
    obtain ⟨⟨c1, c2⟩, rfl⟩ := hj
    simp only [Arms.next] at h2 ⊢
    exact (ih _ _ s1 ⟨c1, rfl⟩ h1 (by omega) h3 hl hp).stop ho
  | @armMatch p b rest s t u o x l _ hd hr _ ih1 ih2 =>
    intro a e s1 hj h1 h2 h3 hl hp
    obtain ⟨⟨c1, c2, c3, c4, c5, c6, c7, c8, c9, c10⟩, rfl⟩ := hj
    simp only [Arms.next] at h2 c9 ⊢
    have := p.le_next a; have := b.le_next (p.next a + 40)
    have := rest.le_next (b.next (p.next a + 40) + 16)
    refine (ih1 _ _ s1 ⟨c1, rfl⟩ h1 (by omega) h3 hl hp).next fun t1 k1 k2 k3 => ?_
    obtain ⟨v, u1, u2, u3⟩ := run_of_match (cfg := cfg) (n := n) k1 k2 g k3 (by omega) (by omega) c2 c3
      c4 c6 hd hr
    exact ((ih2 _ _ v ⟨c7, rfl⟩ (by omega) (by omega) (k2.setData _) u2 u3).step u1).then
      fun t1 l1 l2 l3 => run_branch l1 l2 g l3 (by omega) (by omega) c8 c9
  | @armNext p b rest s t u o x y l _ hd hne hr _ ih1 ih2 =>
    intro a e s1 hj h1 h2 h3 hl hp
    obtain ⟨⟨c1, c2, c3, c4, c5, c6, c7, c8, c9, c10⟩, rfl⟩ := hj
    simp only [Arms.next] at h2 c10 ⊢
    have := p.le_next a; have := b.le_next (p.next a + 40)
    have := rest.le_next (b.next (p.next a + 40) + 16)
    refine (ih1 _ _ s1 ⟨c1, rfl⟩ h1 (by omega) h3 hl hp).next fun t1 k1 k2 k3 => ?_
    obtain ⟨v, u1, u2, u3⟩ := run_of_next (cfg := cfg) (n := n) k1 k2 g k3 (by omega) (by omega) c2 c3
      c4 c5 hd hne hr
    exact (ih2 _ _ v ⟨c10, rfl⟩ (by omega) (by omega) (k2.setData _) u2 u3).step u1
  | @armStop p b rest s t o _ ho ih =>
    intro a e s1 hj h1 h2 h3 hl hp
    obtain ⟨⟨c1, c2, c3, c4, c5, c6, c7, c8, c9, c10⟩, rfl⟩ := hj
    simp only [Arms.next] at h2 ⊢
    have := p.le_next a; have := b.le_next (p.next a + 40)
    have := rest.le_next (b.next (p.next a + 40) + 16)
    exact (ih _ _ s1 ⟨c1, rfl⟩ h1 (by omega) h3 hl hp).stop ho

end

end Verif
