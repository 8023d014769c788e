import Verif.Lemmas.Compile

/-!
# Every structured program is compiled to its threaded code
-/

namespace Verif
open Spec Stack

/-- Compiling the items one by one, in builds with (`oc`) or without overflow checks; on the way
nothing below `a0` changes and the control stack stays in order. -/
inductive Gens (oc : Bool) (R : Refs) (wl : Wordlist) (base : Stack Control) (a0 : Nat) :
    List Item → Buf → Buf → Prop
  | nil {x : Buf} : Gens oc R wl base a0 [] x x
  | cons {i : Item} {l : List Item} {x y z : Buf} {K : List Control} {e : Nat} :
      (∀ c : Ctx, c.oc = oc → Gen R wl (i.run c) x y) → Ready base K y e → a0 ≤ e → Same x y (· < a0) →
      Gens oc R wl base a0 l y z → Gens oc R wl base a0 (i :: l) x z

section
variable {oc : Bool} {R : Refs} {lv : Nat} {wl : Wordlist} {base : Stack Control} {a0 : Nat}

theorem Gens.append {l m : List Item} {x y z : Buf} (h : Gens oc R wl base a0 l x y)
    (k : Gens oc R wl base a0 m y z) : Gens oc R wl base a0 (l ++ m) x z := by
  induction h with
  | nil => exact k
  | cons h1 h2 h3 h4 _ ih => exact .cons h1 h2 h3 h4 (ih k)

/-- Compiling `items` from `x` reaches `y` at `e`. -/
structure Compiled (oc : Bool) (R : Refs) (wl : Wordlist) (base : Stack Control) (a0 : Nat)
    (items : List Item) (K K' : List Control) (x y : Buf) (e : Nat) (S : Nat → Prop) : Prop where
  gens : Gens oc R wl base a0 items x y
  ready : Ready base K' y e
  same : Same x y S

theorem Compiled.one {i : Item} {K K' : List Control} {x y : Buf} {e : Nat} {S : Nat → Prop}
    (h1 : ∀ c : Ctx, c.oc = oc → Gen R wl (i.run c) x y) (h2 : Ready base K' y e) (h3 : Same x y S)
    (h4 : a0 ≤ e := by first | omega | (simp only [Stmt.next]; omega)) (h5 : ∀ n, n < a0 → S n := by intro n hn; first | omega | (dsimp only; omega)) :
    Compiled oc R wl base a0 [i] K K' x y e S :=
  ⟨.cons h1 h2 h4 ⟨h3.start, h3.cap, fun z hz => h3.bytes z (h5 z hz)⟩ .nil, h2, h3⟩

theorem Compiled.append {l m : List Item} {K K' K'' : List Control} {x y z : Buf} {e e' : Nat}
    {S T U : Nat → Prop} (h : Compiled oc R wl base a0 l K K' x y e S)
    (k : Compiled oc R wl base a0 m K' K'' y z e' T) (hs : ∀ n, U n → S n ∧ T n) :
    Compiled oc R wl base a0 (l ++ m) K K'' x z e' U :=
  ⟨h.gens.append k.gens, k.ready, h.same.trans k.same hs⟩

theorem cellIs_of {d : DataSpace} {a n : Nat} (h : d.cellAt a = toCell n) (hn : n < 2 ^ 64) : CellIs d a n := by
  rw [CellIs, h, toNat_toCell hn]

theorem Same.cellIs {x y : Buf} {S : Nat → Prop} (h : Same x y S) {a n : Nat} (k : CellIs x.1 a n)
    (hS : ∀ z, a ≤ z → z < a + 8 → S z) : CellIs y.1 a n := cellIs_congr k fun z h1 h2 => h.bytes z (hS z h1 h2)

theorem Spec.Compiler.lt (h : Compiler R lv wl) {i : Nat} {p : CorePrim} (hi : (i, p) ∈ roles R lv) : i < 2 ^ 64 := by
  obtain ⟨w, h1, _⟩ := h.runtime _ hi
  have := (List.getElem?_eq_some_iff.1 h1).1
  have := h.size
  simp only at *
  omega

theorem Spec.Compiler.call_lt (h : Compiler R lv wl) {i : Nat} (hi : Plain wl i) : i < 2 ^ 64 := by
  obtain ⟨w, h1, _⟩ := hi
  have := (List.getElem?_eq_some_iff.1 h1).1
  have := h.size
  omega

theorem Ready.lt {K : List Control} {x : Buf} {a b : Nat} (h : Ready base K x a) (hb : b ≤ x.1.limit) : b < 2 ^ 64 := by
  have := h.space.small
  simp only [DataSpace.limit] at hb
  omega

theorem Ready.start_le {K : List Control} {x : Buf} {a : Nat} (h : Ready base K x a) : x.1.start ≤ a := by
  have := h.here
  simp only [DataSpace.here] at this
  omega

/-- What is asked of a program. -/
structure Fine (wl : Wordlist) (calls : List Nat) (leaves : Bool) (K : List Control) (height limit e : Nat) :
    Prop where
  calls : ∀ i ∈ calls, Plain wl i
  leaves : leaves = true
  height : K.length + height ≤ 64
  room : e ≤ limit

/-- There is a `DO` on the control stack. -/
def InLoop (K : List Control) (b : Bool) : Prop := b = true → ∃ p q, Control.do_ p q ∈ K

theorem InLoop.cons {K : List Control} {b : Bool} (h : InLoop K b) (m : Control) : InLoop (m :: K) b := by
  intro hb
  obtain ⟨p, q, hp⟩ := h hb
  exact ⟨p, q, by simp [hp]⟩

theorem InLoop.append {K : List Control} {b : Bool} (h : InLoop K b) (l : List Control) :
    InLoop (l ++ K) b := by
  intro hb
  obtain ⟨p, q, hp⟩ := h hb
  exact ⟨p, q, by simp [hp]⟩

mutual
/-- Compiling a structured program lays down its code. -/
theorem compile_stmt (hC : Compiler R lv wl) : ∀ (p : Stmt) (b : Bool) (K : List Control) (x : Buf) (a : Nat),
    a0 ≤ a → Ready base K x a → InLoop K b →
    Fine wl p.calls (p.leavesOk b) K p.height x.1.limit (p.next a) →
    ∃ y, Compiled oc R wl base a0 (p.items R lv) K K x y (p.next a) (· < a) ∧ (p.place a).At R lv y.1 a
  | .skip, b, K, x, a, h0, h, _, f => ⟨x, ⟨.nil, h, ⟨rfl, rfl, fun _ _ => rfl⟩⟩, trivial⟩
  | .seq p q, b, K, x, a, h0, h, hl, f => by
    have hp := p.le_next a; have hq := q.le_next (p.next a)
    obtain ⟨f1, f2, f3, f4⟩ := f
    simp only [Stmt.calls, Stmt.leavesOk, Stmt.height, Stmt.next, Bool.and_eq_true, List.mem_append]
      at f1 f2 f3 f4
    obtain ⟨y, c1, c2⟩ := compile_stmt hC p b K x a h0 h hl
      ⟨fun i hi => f1 i (.inl hi), f2.1, by omega, by omega⟩
    obtain ⟨z, d1, d2⟩ := compile_stmt hC q b K y _ (by omega) c1.ready hl
      ⟨fun i hi => f1 i (.inr hi), f2.2, by omega, by rw [c1.same.limit]; omega⟩
    refine ⟨z, c1.append d1 (fun n hn => by omega), ?_⟩
    simp only [Stmt.place, Stmt.At, Stmt.place_next]
    exact ⟨c2.congr fun n _ h2 => d1.same.bytes n (by simpa using h2), d2⟩
  | .word i, b, K, x, a, h0, h, _, f => by
    obtain ⟨f1, f2, f3, f4⟩ := f
    simp only [Stmt.calls, Stmt.next, List.mem_singleton, forall_eq] at f1 f4
    obtain ⟨a1, a2, a3⟩ := h.emit f4 (toCell i)
    exact ⟨_, .one (fun _ _ => gen_call h f4 f1) a1 a2 (Nat.le_trans h0 (Stmt.le_next _ _)), cellIs_of a3 (hC.call_lt f1)⟩
  | .lit v, b, K, x, a, h0, h, _, f => by
    have f4 := f.room
    simp only [Stmt.next] at f4
    obtain ⟨a1, a2, a3, a4⟩ := h.emit2 f4 (toCell R.lit) v
    exact ⟨_, .one (fun _ _ => gen_lit h f4 v) a1 a2 (Nat.le_trans h0 (Stmt.le_next _ _)),
      cellIs_of a3 (hC.lt (p := .lit) (by simp [roles])), a4⟩
  | .flt v, b, K, x, a, h0, h, _, f => by
    have f4 := f.room
    simp only [Stmt.next] at f4
    obtain ⟨y, a0, a1, a2, a3, a4⟩ := gen_flt (R := R) (wl := wl) h f4 v
    exact ⟨_, .one (fun c _ => a0 c) a1 a2 (Nat.le_trans h0 (Stmt.le_next _ _)), cellIs_of a3 (hC.lt (p := .flit) (by simp [roles])), a4⟩
  | .str _ bs, b, K, x, a, h0, h, _, f => by
    have f4 := f.room
    simp only [Stmt.next] at f4
    have := roundUp8_le (a + 16 + bs.length)
    obtain ⟨y, a0, a1, a2, a3, a4, a5⟩ := gen_str (R := R) (wl := wl) oc h f4 hC.sQuote
    exact ⟨_, .one a0 a1 a2 (Nat.le_trans h0 (Stmt.le_next _ _)), cellIs_of a3 (hC.lt (p := .sQuoteRt) (by simp [roles])),
      cellIs_of a4 (h.lt (by omega)), a5, rfl⟩
  | .exit, b, K, x, a, h0, h, _, f => by
    have f4 := f.room
    simp only [Stmt.next] at f4
    obtain ⟨a1, a2, a3⟩ := h.emit f4 (toCell R.exit)
    exact ⟨_, .one (fun _ _ => gen_call h f4 hC.exit) a1 a2 (Nat.le_trans h0 (Stmt.le_next _ _)), cellIs_of a3 (hC.call_lt hC.exit)⟩
  | .leave, b, K, x, a, h0, h, hl, f => by
    have f4 := f.room
    have f2 := f.leaves
    simp only [Stmt.next, Stmt.leavesOk] at f4 f2
    obtain ⟨a1, a2, a3⟩ := h.emit f4 (toCell lv)
    exact ⟨_, .one (fun _ _ => gen_leave h f4 hC.leave (hl f2)) a1 a2 (Nat.le_trans h0 (Stmt.le_next _ _)),
      cellIs_of a3 (hC.lt (p := .leave) (by simp [roles]))⟩
  | .ifThen p, b, K, x, a, h0, h, hl, f => by
    have hp := p.le_next (a + 16)
    obtain ⟨f1, f2, f3, f4⟩ := f
    simp only [Stmt.calls, Stmt.leavesOk, Stmt.height, Stmt.next] at f1 f2 f3 f4
    obtain ⟨a1, a2, a3, a4⟩ := h.mark (by omega) (by omega) (toCell R.zeroBranch) 0 (.if_ (a + 16))
    obtain ⟨y, c1, c2⟩ := compile_stmt hC p b _ _ _ (by omega) a1 (hl.cons _)
      ⟨f1, f2, by simp; omega, by rw [a2.limit]; omega⟩
    have hst : y.1.start ≤ a := by rw [c1.same.start, a2.start]; exact h.start_le
    obtain ⟨d1, d2, d3⟩ := c1.ready.pop.patch (a + 16 - 8) (toCell (p.next (a + 16)))
    have g := fun (c : Ctx) (_ : c.oc = oc) => gen_then_if (c := c) (R := R) (wl := wl) c1.ready (by omega) (by omega)
    refine ⟨_, ((Compiled.one (fun _ _ => gen_if h (by omega)) a1 a2).append c1 (fun n hn => ?_)).append
      (.one g d1 ⟨d2.1, d2.2, d2.3⟩) (U := (· < a)) (S := (· < a)) (fun n hn => ?_), ?_⟩
    · omega
    · omega
    · simp only [Stmt.place, Stmt.At, Stmt.place_next]
      refine ⟨d2.cellIs (c1.same.cellIs (cellIs_of a3 (hC.lt (p := .zeroBranch) (by simp [roles])))
        (fun z _ _ => by omega)) (fun z _ _ => by omega), ?_, c2.congr fun n h1 h2 => d2.bytes n (by omega)⟩
      exact cellIs_of (by simpa using d3) (h.lt (by omega))
  | .ifElse p q, b, K, x, a, h0, h, hl, f => by
    have hp := p.le_next (a + 16); have hq := q.le_next (p.next (a + 16) + 16)
    obtain ⟨f1, f2, f3, f4⟩ := f
    simp only [Stmt.calls, Stmt.leavesOk, Stmt.height, Stmt.next, Bool.and_eq_true, List.mem_append]
      at f1 f2 f3 f4
    obtain ⟨a1, a2, a3, a4⟩ := h.mark (by omega) (by omega) (toCell R.zeroBranch) 0 (.if_ (a + 16))
    obtain ⟨y, c1, c2⟩ := compile_stmt hC p b _ _ _ (by omega) a1 (hl.cons _)
      ⟨fun i hi => f1 i (.inl hi), f2.1, by simp; omega, by rw [a2.limit]; omega⟩
    have hst : y.1.start ≤ a := by rw [c1.same.start, a2.start]; exact h.start_le
    have hlim : y.1.limit = x.1.limit := by rw [c1.same.limit, a2.limit]
    have g := fun (c : Ctx) (_ : c.oc = oc) => gen_else (c := c) (R := R) (wl := wl) c1.ready (by omega) (by omega) (by omega)
    obtain ⟨m1, m2, m3, m4⟩ := c1.ready.pop.mark (by simp only; omega) (by omega) (toCell R.branch) 0
      (.else_ (p.next (a + 16) + 16))
    obtain ⟨d1, d2, d3⟩ := m1.patch (a + 16 - 8) (toCell (p.next (a + 16) + 16))
    obtain ⟨z, e1, e2⟩ := compile_stmt hC q b _ _ _ (by omega) d1 (hl.cons _)
      ⟨fun i hi => f1 i (.inr hi), f2.2, by simp; omega, by
        rw [d2.limit, m2.limit]; simp only; omega⟩
    have hst2 : z.1.start ≤ a := by rw [e1.same.start, d2.start, m2.start]; exact hst
    obtain ⟨k1, k2, k3⟩ := e1.ready.pop.patch (p.next (a + 16) + 16 - 8)
      (toCell (q.next (p.next (a + 16) + 16)))
    have g2 := fun (c : Ctx) (_ : c.oc = oc) => gen_then_else (c := c) (R := R) (wl := wl) e1.ready (by omega) (by omega)
    have cp1 := (Compiled.one (K := K) (i := .imm .immIf) (fun c _ => gen_if (c := c) (R := R) (wl := wl) h (by omega)) a1 a2).append c1
      (U := (· < a)) (fun n hn => by omega)
    have s2 := m2.trans d2 (U := fun n => n < p.next (a + 16) ∧ (n < a + 8 ∨ a + 16 ≤ n))
      (fun n hn => ⟨by omega, by omega⟩)
    have s2' : Same y _ _ := ⟨s2.1, s2.2, s2.3⟩
    have cp2 := cp1.append (.one (i := .imm .immElse) g d1 s2') (U := (· < a)) (fun n hn => by omega)
    have cp3 := cp2.append e1 (U := (· < a)) (fun n hn => by omega)
    have s4 : Same z _ _ := ⟨k2.1, k2.2, k2.3⟩
    have cp4 := cp3.append (.one (i := .imm .immThen) g2 k1 s4) (U := (· < a)) (fun n hn => by omega)
    refine ⟨_, by simpa [Stmt.items, Stmt.next] using cp4, ?_⟩
    simp only [Stmt.place, Stmt.At, Stmt.place_next]
    refine ⟨?_, ?_, ?_, ?_, ?_, ?_⟩
    · exact k2.cellIs (e1.same.cellIs (s2'.cellIs (c1.same.cellIs (cellIs_of a3
        (hC.lt (p := .zeroBranch) (by simp [roles]))) (fun z _ _ => by omega)) (fun z _ _ => by omega))
        (fun z _ _ => by omega)) (fun z _ _ => by omega)
    · exact k2.cellIs (e1.same.cellIs (cellIs_of (by simpa using d3) (h.lt (by omega)))
        (fun z _ _ => by omega)) (fun z _ _ => by omega)
    · exact ((c2.congr fun n h1 h2 => s2'.bytes n (by simp at h2; omega)).congr fun n h1 h2 =>
        e1.same.bytes n (by simp at h2; omega)).congr fun n h1 h2 => k2.bytes n (by simp at h2; omega)
    · exact k2.cellIs (e1.same.cellIs (d2.cellIs (cellIs_of m3
        (hC.lt (p := .branch) (by simp [roles]))) (fun z _ _ => by omega)) (fun z _ _ => by omega))
        (fun z _ _ => by omega)
    · exact cellIs_of (by simpa using k3) (h.lt (by omega))
    · exact e2.congr fun n h1 h2 => k2.bytes n (by omega)
  | .untilLoop p, b, K, x, a, h0, h, hl, f => by
    have hp := p.le_next a
    obtain ⟨f1, f2, f3, f4⟩ := f
    simp only [Stmt.calls, Stmt.leavesOk, Stmt.height, Stmt.next] at f1 f2 f3 f4
    have a1 := h.push (by omega) (.begin_ a)
    obtain ⟨y, c1, c2⟩ := compile_stmt hC p b _ _ _ (by omega) a1 (hl.cons _) ⟨f1, f2, by simp; omega, by simp only; omega⟩
    have hlim : y.1.limit = x.1.limit := c1.same.limit
    obtain ⟨d1, d2, d3, d4⟩ := c1.ready.pop.emit2 (by simp only; omega) (toCell R.zeroBranch) (toCell a)
    have g := fun (c : Ctx) (_ : c.oc = oc) => gen_until (c := c) (R := R) (wl := wl) c1.ready (by omega)
    have cp1 := (Compiled.one (K := K) (i := .imm .immBegin) (S := (· < a))
      (fun c _ => gen_begin (c := c) (R := R) (wl := wl) h) a1 ⟨rfl, rfl, fun _ _ => rfl⟩).append c1
      (U := (· < a)) (fun n hn => by omega)
    have s4 : Same y _ _ := ⟨d2.1, d2.2, d2.3⟩
    have cp2 := cp1.append (.one (i := .imm .immUntil) g d1 s4) (U := (· < a)) (fun n hn => by omega)
    refine ⟨_, by simpa [Stmt.items, Stmt.next] using cp2, ?_⟩
    simp only [Stmt.place, Stmt.At, Stmt.place_next]
    exact ⟨c2.congr fun n h1 h2 => d2.bytes n (by simpa using h2),
      cellIs_of d3 (hC.lt (p := .zeroBranch) (by simp [roles])), cellIs_of d4 (h.lt (by omega))⟩
  | .againLoop p, b, K, x, a, h0, h, hl, f => by
    have hp := p.le_next a
    obtain ⟨f1, f2, f3, f4⟩ := f
    simp only [Stmt.calls, Stmt.leavesOk, Stmt.height, Stmt.next] at f1 f2 f3 f4
    have a1 := h.push (by omega) (.begin_ a)
    obtain ⟨y, c1, c2⟩ := compile_stmt hC p b _ _ _ (by omega) a1 (hl.cons _) ⟨f1, f2, by simp; omega, by simp only; omega⟩
    have hlim : y.1.limit = x.1.limit := c1.same.limit
    obtain ⟨d1, d2, d3, d4⟩ := c1.ready.pop.emit2 (by simp only; omega) (toCell R.branch) (toCell a)
    have g := fun (c : Ctx) (_ : c.oc = oc) => gen_again (c := c) (R := R) (wl := wl) c1.ready (by omega)
    have cp1 := (Compiled.one (K := K) (i := .imm .immBegin) (S := (· < a))
      (fun c _ => gen_begin (c := c) (R := R) (wl := wl) h) a1 ⟨rfl, rfl, fun _ _ => rfl⟩).append c1
      (U := (· < a)) (fun n hn => by omega)
    have s4 : Same y _ _ := ⟨d2.1, d2.2, d2.3⟩
    have cp2 := cp1.append (.one (i := .imm .immAgain) g d1 s4) (U := (· < a)) (fun n hn => by omega)
    refine ⟨_, by simpa [Stmt.items, Stmt.next] using cp2, ?_⟩
    simp only [Stmt.place, Stmt.At, Stmt.place_next]
    exact ⟨c2.congr fun n h1 h2 => d2.bytes n (by simpa using h2),
      cellIs_of d3 (hC.lt (p := .branch) (by simp [roles])), cellIs_of d4 (h.lt (by omega))⟩
  | .whileLoop p q, b, K, x, a, h0, h, hl, f => by
    have hp := p.le_next a; have hq := q.le_next (p.next a + 16)
    obtain ⟨f1, f2, f3, f4⟩ := f
    simp only [Stmt.calls, Stmt.leavesOk, Stmt.height, Stmt.next, Bool.and_eq_true, List.mem_append]
      at f1 f2 f3 f4
    have a1 := h.push (by omega) (.begin_ a)
    obtain ⟨y, c1, c2⟩ := compile_stmt hC p b _ _ _ (by omega) a1 (hl.cons _)
      ⟨fun i hi => f1 i (.inl hi), f2.1, by simp; omega, by simp only; omega⟩
    have hlim : y.1.limit = x.1.limit := c1.same.limit
    have hst : y.1.start ≤ a := by rw [c1.same.start]; exact h.start_le
    obtain ⟨m1, m2, m3, m4⟩ := c1.ready.mark (by omega) (by simp; omega) (toCell R.zeroBranch) 0
      (.while_ (p.next a + 16))
    have g := fun (c : Ctx) (_ : c.oc = oc) => gen_while (c := c) (R := R) (wl := wl) c1.ready (by omega)
    obtain ⟨z, e1, e2⟩ := compile_stmt hC q b _ _ _ (by omega) m1 ((hl.cons _).cons _)
      ⟨fun i hi => f1 i (.inr hi), f2.2, by simp; omega, by rw [m2.limit]; omega⟩
    have hst2 : z.1.start ≤ a := by rw [e1.same.start, m2.start]; exact hst
    have hlim2 : z.1.limit = x.1.limit := by rw [e1.same.limit, m2.limit, hlim]
    have g2 := fun (c : Ctx) (_ : c.oc = oc) => gen_repeat (c := c) (R := R) (wl := wl) e1.ready (by omega) (by omega) (by omega)
    have k0 : Ready base K (z.1, z.2.pop2.2) (q.next (p.next a + 16)) :=
      ⟨e1.ready.space, e1.ready.here, e1.ready.ctl.pop2.2⟩
    obtain ⟨k1, k2, k3, k4⟩ := k0.emit2 (by simp only; omega) (toCell R.branch) (toCell a)
    obtain ⟨l1, l2, l3⟩ := k1.patch (p.next a + 16 - 8) (toCell (q.next (p.next a + 16) + 16))
    have cp1 := (Compiled.one (K := K) (i := .imm .immBegin) (S := (· < a))
      (fun c _ => gen_begin (c := c) (R := R) (wl := wl) h) a1 ⟨rfl, rfl, fun _ _ => rfl⟩).append c1
      (U := (· < a)) (fun n hn => by omega)
    have cp2 := cp1.append (.one (i := .imm .immWhile) g m1 m2) (U := (· < a)) (fun n hn => by omega)
    have cp3 := cp2.append e1 (U := (· < a)) (fun n hn => by omega)
    have s4 := k2.trans l2 (U := fun n => n < q.next (p.next a + 16) ∧
      (n < p.next a + 8 ∨ p.next a + 16 ≤ n)) (fun n hn => ⟨by omega, by omega⟩)
    have s4' : Same z _ _ := ⟨s4.1, s4.2, s4.3⟩
    have cp4 := cp3.append (.one (i := .imm .immRepeat) g2 l1 s4') (U := (· < a)) (fun n hn => by omega)
    refine ⟨_, by simpa [Stmt.items, Stmt.next] using cp4, ?_⟩
    simp only [Stmt.place, Stmt.At, Stmt.place_next]
    refine ⟨?_, ?_, ?_, ?_, ?_, ?_⟩
    · exact ((c2.congr fun n h1 h2 => m2.bytes n (by simp at h2; omega)).congr fun n h1 h2 =>
        e1.same.bytes n (by simp at h2; omega)).congr fun n h1 h2 => s4'.bytes n (by simp at h2; omega)
    · exact s4'.cellIs (e1.same.cellIs (cellIs_of m3
        (hC.lt (p := .zeroBranch) (by simp [roles]))) (fun z _ _ => by omega)) (fun z _ _ => by omega)
    · exact cellIs_of (by simpa using l3) (h.lt (by omega))
    · exact e2.congr fun n h1 h2 => s4'.bytes n (by simp at h2; omega)
    · exact l2.cellIs (cellIs_of k3 (hC.lt (p := .branch) (by simp [roles]))) (fun z _ _ => by omega)
    · exact l2.cellIs (cellIs_of k4 (h.lt (by omega))) (fun z _ _ => by omega)
  | .loop ask plus _ p, b, K, x, a, h0, h, hl, f => by
    have hp := p.le_next (a + 16)
    obtain ⟨f1, f2, f3, f4⟩ := f
    simp only [Stmt.calls, Stmt.leavesOk, Stmt.height, Stmt.next] at f1 f2 f3 f4
    have g0 : ∀ c : Ctx, c.oc = oc → Gen R wl (coreAction c (if ask then .immQdo else .immDo)) x
        (x.1.emit2 (toCell (if ask then R.qdoRt else R.doRt)) 0, x.2.push (.do_ (a + 16) (a + 16))) := by
      intro c _
      cases ask with
      | true => exact gen_qdo h (by omega)
      | false => exact gen_do h (by omega)
    obtain ⟨a1, a2, a3, a4⟩ := h.mark (by omega) (by omega) (toCell (if ask then R.qdoRt else R.doRt)) 0
      (.do_ (a + 16) (a + 16))
    obtain ⟨y, c1, c2⟩ := compile_stmt hC p true _ _ _ (by omega) a1 (fun _ => ⟨_, _, by simp; exact .inl ⟨rfl, rfl⟩⟩)
      ⟨f1, f2, by simp; omega, by rw [a2.limit]; omega⟩
    have hst : y.1.start ≤ a := by rw [c1.same.start, a2.start]; exact h.start_le
    have hlim : y.1.limit = x.1.limit := by rw [c1.same.limit, a2.limit]
    have g := fun (c : Ctx) (_ : c.oc = oc) => gen_loop (c := c) (R := R) (wl := wl) c1.ready (by omega) (by omega) (by omega) plus
    obtain ⟨m1, m2, m3, m4⟩ := c1.ready.pop.emit2 (by simp only; omega)
      (toCell (if plus then R.plusLoopRt else R.loopRt)) (toCell (a + 16))
    obtain ⟨d1, d2, d3⟩ := m1.patch (a + 16 - 8) (toCell (p.next (a + 16) + 16))
    have cp1 := (Compiled.one (K := K) (i := .imm (if ask then .immQdo else .immDo)) g0 a1 a2).append c1
      (U := (· < a)) (fun n hn => by omega)
    have s2 := m2.trans d2 (U := fun n => n < p.next (a + 16) ∧ (n < a + 8 ∨ a + 16 ≤ n))
      (fun n hn => ⟨by omega, by omega⟩)
    have s2' : Same y _ _ := ⟨s2.1, s2.2, s2.3⟩
    have cp2 := cp1.append (.one (i := .imm (if plus then .immPlusLoop else .immLoop)) g d1 s2')
      (U := (· < a)) (fun n hn => by omega)
    refine ⟨_, by simpa [Stmt.items, Stmt.next] using cp2, ?_⟩
    simp only [Stmt.place, Stmt.At, Stmt.place_next]
    refine ⟨trivial, ?_, ?_, ?_, ?_, ?_⟩
    · refine s2'.cellIs (c1.same.cellIs (cellIs_of a3 ?_) (fun z _ _ => by omega)) (fun z _ _ => by omega)
      cases ask with
      | true => exact hC.lt (p := .qdoRt) (by simp [roles])
      | false => exact hC.lt (p := .doRt) (by simp [roles])
    · exact cellIs_of (by simpa using d3) (h.lt (by omega))
    · exact c2.congr fun n h1 h2 => s2'.bytes n (by simp at h2; omega)
    · refine d2.cellIs (cellIs_of m3 ?_) (fun z _ _ => by omega)
      cases plus with
      | true => exact hC.lt (p := .plusLoopRt) (by simp [roles])
      | false => exact hC.lt (p := .loopRt) (by simp [roles])
    · exact d2.cellIs (cellIs_of m4 (h.lt (by omega))) (fun z _ _ => by omega)
  | .case r, b, K, x, a, h0, h, hl, f => by
    have hr := r.le_next a
    obtain ⟨f1, f2, f3, f4⟩ := f
    simp only [Stmt.calls, Stmt.leavesOk, Stmt.height, Stmt.next] at f1 f2 f3 f4
    have a1 := h.push (by omega) .case_
    obtain ⟨y, c1, -, c2⟩ := compile_arms hC r b K [] (x.1, x.2.push .case_) a h0 a1 ⟨by simp, by simp, .nil⟩ hl
      ⟨f1, f2, by simp; omega, f4⟩
    have cp1 := (Compiled.one (K := K) (i := .imm .immCase) (S := (· < a))
      (fun c _ => gen_case (c := c) (R := R) (wl := wl)) a1 ⟨rfl, rfl, fun _ _ => rfl⟩).append c1
      (U := (· < a)) (fun n hn => ⟨hn, hn, by intro p hp; cases hp⟩)
    refine ⟨y, by simpa [Stmt.items, Stmt.next] using cp1, ?_⟩
    simpa only [Stmt.place, Stmt.At, Arms.place_next] using c2

/-- The same for the arms of a `CASE`; `ch` are the cells of earlier arms that wait for the end. -/
theorem compile_arms (hC : Compiler R lv wl) : ∀ (r : Arms) (b : Bool) (K : List Control) (ch : List Nat)
    (x : Buf) (a : Nat), a0 ≤ a → Ready base (ch.map .endof ++ .case_ :: K) x a →
    Chain (max x.1.start a0) a ch → InLoop K b →
    Fine wl r.calls (r.leavesOk b) (ch.map .endof ++ .case_ :: K) r.height x.1.limit (r.next a) →
    ∃ y, Compiled oc R wl base a0 (r.items R lv) (ch.map .endof ++ .case_ :: K) K x y (r.next a)
        (fun z => z < a ∧ Off ch z) ∧
      (∀ p ∈ ch, y.1.cellAt (p - 8) = toCell (r.next a)) ∧
      (r.place a).At R lv y.1 (r.next a) a
  | .default p, b, K, ch, x, a, h0, h, hch, hl, f => by
    have hp := p.le_next a
    obtain ⟨f1, f2, f3, f4⟩ := f
    simp only [Arms.calls, Arms.leavesOk, Arms.height, Arms.next] at f1 f2 f3 f4
    obtain ⟨y, c1, c2⟩ := compile_stmt hC p b _ x a h0 h ((hl.cons _).append _) ⟨f1, f2, by omega, by omega⟩
    have hlim := c1.same.limit
    have hch' : Chain y.1.start (p.next a) ch :=
      ⟨fun q hq => by rw [c1.same.start]; have := hch.ge q hq; omega, fun q hq => by have := hch.le q hq; omega, hch.apart⟩
    obtain ⟨z, d0, d1, d2, d3, d4⟩ := gen_endcase (R := R) (wl := wl) c1.ready hch' (by omega)
    have cp := c1.append (.one (i := .imm .immEndcase) (fun c _ => d0 c) d1 d2 (by omega)
      (fun n hn => ⟨by omega, fun p hp => by have := hch.ge p hp; omega⟩)) (U := fun z => z < a ∧ Off ch z)
      (fun n hn => ⟨hn.1, by omega, hn.2⟩)
    refine ⟨z, by simpa [Arms.items, Arms.next] using cp, d3, ?_⟩
    simp only [Arms.place, Arms.At, Stmt.place_next]
    exact ⟨c2.congr fun n h1 h2 => d2.bytes n ⟨by simpa using h2, fun q hq => by
        have := hch.le q hq; omega⟩, cellIs_of d4 (hC.lt (p := .drop) (by simp [roles]))⟩
  | .arm t q r, b, K, ch, x, a, h0, h, hch, hl, f => by
    have ht := t.le_next a; have hq := q.le_next (t.next a + 40)
    have hr := r.le_next (q.next (t.next a + 40) + 16)
    obtain ⟨f1, f2, f3, f4⟩ := f
    simp only [Arms.calls, Arms.leavesOk, Arms.height, Arms.next, Bool.and_eq_true, List.mem_append]
      at f1 f2 f3 f4
    obtain ⟨y, c1, c2⟩ := compile_stmt hC t b _ x a h0 h ((hl.cons _).append _)
      ⟨fun i hi => f1 i (.inl (.inl hi)), f2.1.1, by omega, by omega⟩
    have hlim := c1.same.limit
    have hst : y.1.start ≤ a := by rw [c1.same.start]; exact h.start_le
    obtain ⟨m, M, hm, hM⟩ : ∃ m M, (m = Control.case_ ∨ ∃ n, m = .endof n) ∧
        ch.map Control.endof ++ .case_ :: K = m :: M := by
      cases ch with
      | nil => exact ⟨_, _, .inl rfl, rfl⟩
      | cons n ch => exact ⟨_, _, .inr ⟨n, rfl⟩, rfl⟩
    have cr := c1.ready
    rw [hM] at cr
    have hlM : M.length + 1 = (ch.map Control.endof ++ .case_ :: K).length := by rw [hM]; rfl
    have g := fun (c : Ctx) (_ : c.oc = oc) => gen_of (c := c) (R := R) (wl := wl) hm cr (by omega)
    have m0 : Ready base (m :: M) (y.1, y.2.pop.2.push m) (t.next a) := cr.pop.push (by omega) m
    obtain ⟨m1, m2, m3, m4, m5, m6⟩ := m0.of (by simp only; omega) (by simp; omega) R
    rw [← hM] at m1
    obtain ⟨z, e1, e2⟩ := compile_stmt hC q b _ _ _ (by omega) m1 (((hl.cons _).append _).cons _)
      ⟨fun i hi => f1 i (.inl (.inr hi)), f2.1.2, by simp at f3 ⊢; omega, by rw [m2.limit]; simp only; omega⟩
    have hlim2 : z.1.limit = x.1.limit := by rw [e1.same.limit, m2.limit]; exact hlim
    have hst2 : z.1.start ≤ a := by rw [e1.same.start, m2.start]; exact hst
    have g2 := fun (c : Ctx) (_ : c.oc = oc) => gen_endof (c := c) (R := R) (wl := wl) e1.ready (by omega) (by omega) (by omega)
    obtain ⟨k1, k2, k3, k4⟩ := e1.ready.pop.mark (by simp only; omega) (by omega) (toCell R.branch) 0
      (.endof (q.next (t.next a + 40) + 16))
    obtain ⟨l1, l2, l3⟩ := k1.patch (t.next a + 32 - 8) (toCell (q.next (t.next a + 40) + 16))
    have hz : z.1.start = x.1.start := by rw [e1.same.start, m2.start, c1.same.start]
    obtain ⟨v, n1, n2, n3⟩ := compile_arms hC r b K ((q.next (t.next a + 40) + 16) :: ch) _ _ (by omega) l1
      ⟨fun p hp => by
          rcases List.mem_cons.1 hp with rfl | hp
          · show max z.1.start a0 + 8 ≤ _; omega
          · show max z.1.start a0 + 8 ≤ _; rw [hz]; exact hch.ge p hp,
        fun p hp => by
          rcases List.mem_cons.1 hp with rfl | hp
          · omega
          · have := hch.le p hp; omega,
        List.pairwise_cons.2 ⟨fun p hp => by have := hch.le p hp; omega, hch.apart⟩⟩ hl
      ⟨fun i hi => f1 i (.inr hi), f2.2, by simp at f3 ⊢; omega, by
        rw [l2.limit, k2.limit]; simp only; omega⟩
    have m2' : Same y _ _ := ⟨m2.1, m2.2, m2.3⟩
    have s4 := k2.trans l2 (U := fun n => n < q.next (t.next a + 40) ∧
      (n < t.next a + 24 ∨ t.next a + 32 ≤ n)) (fun n hn => ⟨by omega, by omega⟩)
    have s4' : Same z _ _ := ⟨s4.1, s4.2, s4.3⟩
    have off : ∀ n, a ≤ n → n < q.next (t.next a + 40) + 8 →
        Off ((q.next (t.next a + 40) + 16) :: ch) n := by
      intro n h1 h2 p hp
      rcases List.mem_cons.1 hp with rfl | hp
      · omega
      · have := hch.le p hp; omega
    have cp1 := c1.append (.one (i := .imm .immOf) g m1 m2') (U := (· < a)) (fun n hn => by omega)
    have cp2 := cp1.append e1 (U := (· < a)) (fun n hn => by omega)
    have cp3 := cp2.append (.one (i := .imm .immEndof) g2 l1 s4') (U := (· < a)) (fun n hn => by omega)
    have cp4 := cp3.append n1 (U := fun z => z < a ∧ Off ch z) (fun n hn => ⟨hn.1, by omega, by
      intro p hp
      rcases List.mem_cons.1 hp with rfl | hp
      · omega
      · exact hn.2 p hp⟩)
    refine ⟨v, by simpa [Arms.items, Arms.next] using cp4, fun p hp => n2 p (by simp [hp]), ?_⟩
    simp only [Arms.place, Arms.At, Arms.next, Stmt.place_next]
    have cA : ∀ {k w : Nat}, CellIs y.1 k w → a ≤ k → k + 8 ≤ t.next a → CellIs v.1 k w := fun hk h1 h2 =>
      n1.same.cellIs (s4'.cellIs (e1.same.cellIs (m2'.cellIs hk (fun z _ _ => by omega))
        (fun z _ _ => by omega)) (fun z _ _ => by omega)) (fun z _ _ => ⟨by omega, off z (by omega) (by omega)⟩)
    have cB : ∀ {k w : Nat}, CellIs (y.1.emitOf R) k w → t.next a ≤ k → k + 8 ≤ t.next a + 40 →
        (k + 8 ≤ t.next a + 24 ∨ t.next a + 32 ≤ k) → CellIs v.1 k w := fun hk h1 h2 h3 =>
      n1.same.cellIs (s4'.cellIs (e1.same.cellIs hk
        (fun z _ _ => by omega)) (fun z _ _ => by omega)) (fun z _ _ => ⟨by omega, off z (by omega) (by omega)⟩)
    refine ⟨?_, ?_, ?_, ?_, ?_, ?_, ?_, ?_, ?_, n3⟩
    · refine c2.congr fun n h1 h2 => ?_
      simp only [Stmt.place_next] at h2
      rw [n1.same.bytes n ⟨by omega, off n (by omega) (by omega)⟩, s4'.bytes n (by omega),
        e1.same.bytes n (by omega), m2'.bytes n (by omega)]
    · exact cB (cellIs_of m3 (hC.lt (p := .over) (by simp [roles]))) (by omega) (by omega) (by omega)
    · exact cB (cellIs_of m4 (hC.lt (p := .equals) (by simp [roles]))) (by omega) (by omega) (by omega)
    · exact cB (cellIs_of m5 (hC.lt (p := .zeroBranch) (by simp [roles]))) (by omega) (by omega) (by omega)
    · exact n1.same.cellIs (cellIs_of (by simpa using l3) (h.lt (by omega)))
        (fun z _ _ => ⟨by omega, off z (by omega) (by omega)⟩)
    · exact cB (cellIs_of m6 (hC.lt (p := .drop) (by simp [roles]))) (by omega) (by omega) (by omega)
    · refine e2.congr fun n h1 h2 => ?_
      simp only [Stmt.place_next] at h2
      rw [n1.same.bytes n ⟨by omega, off n (by omega) (by omega)⟩, s4'.bytes n (by omega)]
    · exact n1.same.cellIs (l2.cellIs (cellIs_of k3 (hC.lt (p := .branch) (by simp [roles])))
        (fun z _ _ => by omega)) (fun z _ _ => ⟨by omega, off z (by omega) (by omega)⟩)
    · have := n2 (q.next (t.next a + 40) + 16) (by simp)
      exact cellIs_of (by simpa using this) (h.lt (by omega))
end

end

end Verif
