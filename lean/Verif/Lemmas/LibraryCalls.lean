import Verif.Lemmas.LibraryWords

/-!
# The definitions of core.fth, one by one
-/

namespace Verif
open Spec Stack

section
variable {R : Refs} {wl : Wordlist} {lv lo hi n : Nat} {k : Fin 5} {d : DataSpace} {s : VM} {cfg : Cfg}
  {l r : List Cell} {m : DataSpace} {ix : String → Nat} {a b x y : Cell}

local notation "Call" => Calling cfg n R lv wl lo hi k d
local notation "Go" => Going cfg n R lv wl lo hi k d

theorem Spec.Coded.call {defs : List (String × Stmt)} (B : Coded R lv wl lo hi d ix defs) (g : Region d lo hi)
    {s' : VM} {l' : List Cell} {m' : DataSpace} {name : String} {p : Stmt}
    (j : Nat) (hj : defs[j]? = some (name, p)) (hl : l.length ≤ capacity) (hr : r.length < capacity)
    (hl' : l'.length ≤ capacity)
    (hb : ∀ z q, Go (p.place q) (shape s l (z :: r) m) (shape s' l' (z :: r) m')) :
    Call (ix name) (shape s l r m) (shape s' l' r m') := by
  obtain ⟨w, hw, ha, h1, h2, hat⟩ := B _ (List.mem_of_getElem? hj)
  exact calling_colon g hw ha h1 h2 hat hl hr hl' fun z => hb z _

/-- Closes goals about the number of items. -/
macro "len" : tactic => `(tactic| first | omega |
  (simp only [List.length_cons, List.length_append, params, List.length_nil]; omega))

theorem Spec.Going.last {t t' : VM} (h : t = t') : Go .skip t t' := h ▸ .skip

/-- A step made by a word. -/
macro "calls" t:term : tactic => `(tactic| refine Going.seq (Going.doing (by assumption) $t) ?_)
/-- A step made by a colon definition. -/
macro "colon" t:term : tactic => `(tactic| refine Going.seq (Going.word (by assumption) $t) ?_)
/-- A step made by a word that works on the data stack. -/
macro "effect" j:num : tactic => `(tactic| (refine Going.seq (Going.doing (by assumption)
  (doing_effect $j rfl (Library.uses (by assumption) _ (by simp [libraryUses])) rfl ?_ ?_ ?_)) ?_; len; len; len; try dsimp only))
/-- A step that pushes a number. -/
macro "number" : tactic => `(tactic| (refine Going.seq (Going.lit (by assumption) ?_ ?_) ?_; len; len))
/-- Shows the steps of a definition. -/
macro "steps" : tactic => `(tactic| simp only [code, Stmt.all, List.map, Part.code, Stmt.place])

theorem not_truth (p : Prop) [Decidable p] : wrap (-1 - (truth p).toInt) = truth (¬p) := by
  by_cases h : p
  · simp only [truth, h, if_true, not_true, if_false]; decide
  · simp only [truth, h, if_false, not_false_eq_true, if_true]; decide

theorem truth_zero {p : Prop} [Decidable p] (h : ¬p) : truth p = 0 := by
  simp only [truth, h, if_false]; decide

theorem truth_ne {p : Prop} [Decidable p] (h : p) : truth p ≠ 0 := by
  simp only [truth, h, if_true]; decide

theorem truth_congr {p q : Prop} [Decidable p] [Decidable q] (h : p ↔ q) : truth p = truth q := by
  by_cases hp : p
  · simp [truth, hp, h.mp hp]
  · simp [truth, hp, mt h.mpr hp]

theorem call_twoStar (B : Library R lv wl lo hi d ix) (hl : l.length + 2 ≤ capacity) (hr : r.length + 1 ≤ capacity) :
    Call (ix "2*") (shape s (a :: l) r m) (shape s (wrap (2 * a.toInt) :: l) r m) := by
  have g := B.region
  refine B.coded.call g 0 rfl (by len) (by len) (by len) fun z q => ?_
  steps; number; effect 20
  refine .last ?_
  rw [show (2#64 : Cell).toInt = 2 from rfl, Int.mul_comm]

theorem call_twoSlash (B : Library R lv wl lo hi d ix) (hl : l.length + 2 ≤ capacity) (hr : r.length + 1 ≤ capacity) :
    Call (ix "2/") (shape s (a :: l) r m) (shape s (wrap (a.toInt.tdiv 2) :: l) r m) := by
  have g := B.region
  refine B.coded.call g 1 rfl (by len) (by len) (by len) fun z q => ?_
  steps; number
  calls doing_slash (B.uses _ (by simp [libraryUses])) (by len) (by len) (by decide)
  refine .last ?_
  congr 2
  have h2 : (2#64 : Cell).toInt = 2 := rfl
  refine BitVec.eq_of_toInt_eq ?_
  rw [BitVec.toInt_sdiv, h2, wrap, BitVec.toInt_ofInt]

theorem call_le (B : Library R lv wl lo hi d ix) (hl : l.length + 2 ≤ capacity) (hr : r.length + 1 ≤ capacity) :
    Call (ix "<=") (shape s (b :: a :: l) r m) (shape s (truth (a.toInt ≤ b.toInt) :: l) r m) := by
  have g := B.region
  refine B.coded.call g 4 rfl (by len) (by len) (by len) fun z q => ?_
  steps; effect 26; effect 33
  refine .last ?_
  congr 2
  rw [not_truth]
  exact truth_congr (by omega)

theorem call_ge (B : Library R lv wl lo hi d ix) (hl : l.length + 2 ≤ capacity) (hr : r.length + 1 ≤ capacity) :
    Call (ix ">=") (shape s (b :: a :: l) r m) (shape s (truth (a.toInt ≥ b.toInt) :: l) r m) := by
  have g := B.region
  refine B.coded.call g 5 rfl (by len) (by len) (by len) fun z q => ?_
  steps; effect 25; effect 33
  refine .last ?_
  congr 2
  rw [not_truth]
  exact truth_congr (by omega)

theorem call_qdup (B : Library R lv wl lo hi d ix) (hl : l.length + 2 ≤ capacity) (hr : r.length + 1 ≤ capacity) :
    Call (ix "?dup") (shape s (a :: l) r m) (shape s (if a = 0 then a :: l else a :: a :: l) r m) := by
  have g := B.region
  refine B.coded.call g 6 rfl (by len) (by len) (by split <;> len) fun z q => ?_
  steps; effect 1
  by_cases h : a = 0
  · subst h
    refine Going.seq (Going.ifFalse g (by len) (by len)) (.last rfl)
  · refine Going.seq (Going.ifTrue g (by len) (by len) h ?_) (.last rfl)
    rw [if_neg h]
    effect 1
    exact .skip

theorem call_tuck (B : Library R lv wl lo hi d ix) (hl : l.length + 3 ≤ capacity) (hr : r.length + 1 ≤ capacity) :
    Call (ix "tuck") (shape s (b :: a :: l) r m) (shape s (b :: a :: b :: l) r m) := by
  have g := B.region
  refine B.coded.call g 7 rfl (by len) (by len) (by len) fun z q => ?_
  steps; effect 3; effect 4
  exact .skip

theorem call_max (B : Library R lv wl lo hi d ix) (hl : l.length + 4 ≤ capacity) (hr : r.length + 1 ≤ capacity) :
    Call (ix "max") (shape s (b :: a :: l) r m) (shape s ((if a.toInt < b.toInt then b else a) :: l) r m) := by
  have g := B.region
  refine B.coded.call g 13 rfl (by len) (by len) (by len) fun z q => ?_
  steps; effect 9; effect 25
  by_cases h : a.toInt < b.toInt
  · rw [if_pos h]
    refine Going.seq (Going.elseTrue g (by len) (by len) (truth_ne h) ?_) (.last rfl)
    effect 5
    exact .skip
  · rw [if_neg h, show truth (a.toInt < b.toInt) = 0 from truth_zero h]
    refine Going.seq (Going.elseFalse g (by len) (by len) ?_) (.last rfl)
    effect 2
    exact .skip

theorem call_min (B : Library R lv wl lo hi d ix) (hl : l.length + 4 ≤ capacity) (hr : r.length + 1 ≤ capacity) :
    Call (ix "min") (shape s (b :: a :: l) r m) (shape s ((if a.toInt < b.toInt then a else b) :: l) r m) := by
  have g := B.region
  refine B.coded.call g 14 rfl (by len) (by len) (by len) fun z q => ?_
  steps; effect 9; effect 25
  by_cases h : a.toInt < b.toInt
  · rw [if_pos h]
    refine Going.seq (Going.elseTrue g (by len) (by len) (truth_ne h) ?_) (.last rfl)
    effect 2
    exact .skip
  · rw [if_neg h, show truth (a.toInt < b.toInt) = 0 from truth_zero h]
    refine Going.seq (Going.elseFalse g (by len) (by len) ?_) (.last rfl)
    effect 5
    exact .skip

theorem call_slashString (B : Library R lv wl lo hi d ix) (hl : l.length + 4 ≤ capacity) (hr : r.length + 2 ≤ capacity) :
    Call (ix "/string") (shape s (x :: b :: a :: l) r m)
      (shape s (wrap (b.toInt - x.toInt) :: wrap (a.toInt + x.toInt) :: l) r m) := by
  have g := B.region
  refine B.coded.call g 18 rfl (by len) (by len) (by len) fun z q => ?_
  steps; effect 1
  calls doing_toR (B.uses _ (by simp [libraryUses])) (by len) (by len)
  effect 19; effect 3
  calls doing_rFrom (B.uses _ (by simp [libraryUses])) (by len) (by len)
  effect 18; effect 3
  exact .skip

theorem inIsize_near {a : Cell} {c : Nat} (h : a.toNat + c < 2 ^ 63) : inIsize (a.toInt + (c : Int)) := by
  have : a.toInt = a.toNat := by rw [BitVec.toInt_eq_toNat_cond]; split <;> omega
  simp only [inIsize]; omega

theorem wrap_near {a : Cell} {c : Int} : wrap (a.toInt + c) = a + wrap c := by
  simp only [wrap, BitVec.ofInt_add, BitVec.ofInt_toInt]

theorem toNat_eight {a : Cell} (h : a.toNat + 8 < 2 ^ 63) : (a + 8).toNat = a.toNat + 8 := by bv_omega

theorem call_twoFetch (B : Library R lv wl lo hi d ix) (hm : m.limit < 2 ^ 63) (hl : l.length + 2 ≤ capacity)
    (hr : r.length + 1 ≤ capacity) (h1 : m.start < a.toNat) (h2 : a.toNat + 16 ≤ m.limit) :
    Call (ix "2@") (shape s (a :: l) r m) (shape s (m.cellAt a.toNat :: m.cellAt (a.toNat + 8) :: l) r m) := by
  have g := B.region
  refine B.coded.call g 9 rfl (by len) (by len) (by len) fun z q => ?_
  have e := toNat_eight (a := a) (by omega)
  steps; effect 1
  calls doing_cellPlus (B.uses _ (by simp [libraryUses])) (by len) (by len) (inIsize_near (c := 8) (by omega))
  calls doing_fetch g (B.uses _ (by simp [libraryUses])) (by len) (by len) (by omega) (by omega)
  effect 3
  calls doing_fetch g (B.uses _ (by simp [libraryUses])) (by len) (by len) (by omega) (by omega)
  exact .last (by rw [e])

theorem call_twoStore (B : Library R lv wl lo hi d ix) (hm : m.limit < 2 ^ 63) (hl : l.length + 4 ≤ capacity)
    (hr : r.length + 1 ≤ capacity) (h1 : m.start < a.toNat) (h2 : a.toNat + 16 ≤ m.limit)
    (h3 : a.toNat + 16 ≤ lo ∨ hi ≤ a.toNat) :
    Call (ix "2!") (shape s (a :: y :: x :: l) r m)
      (shape s l r ((m.setCell a.toNat y).setCell (a.toNat + 8) x)) := by
  have g := B.region
  refine B.coded.call g 10 rfl (by len) (by len) (by len) fun z q => ?_
  have e := toNat_eight (a := a) (by omega)
  steps; effect 3; effect 4
  calls doing_store g (B.uses _ (by simp [libraryUses])) (by len) (by len) (by omega) (by omega) (by omega)
  calls doing_cellPlus (B.uses _ (by simp [libraryUses])) (by len) (by len) (inIsize_near (c := 8) (by omega))
  calls doing_store g (B.uses _ (by simp [libraryUses])) (by len) (by len) (by rw [e]; exact Nat.lt_add_right 8 h1)
    (by rw [e]; exact h2) (by omega)
  exact .last (by rw [e])

theorem call_plusStore (B : Library R lv wl lo hi d ix) (hl : l.length + 4 ≤ capacity)
    (hr : r.length + 1 ≤ capacity) (h1 : m.start < a.toNat) (h2 : a.toNat + 8 ≤ m.limit)
    (h3 : a.toNat + 8 ≤ lo ∨ hi ≤ a.toNat) :
    Call (ix "+!") (shape s (a :: x :: l) r m)
      (shape s l r (m.setCell a.toNat (wrap ((m.cellAt a.toNat).toInt + x.toInt)))) := by
  have g := B.region
  refine B.coded.call g 11 rfl (by len) (by len) (by len) fun z q => ?_
  steps; effect 1
  calls doing_fetch g (B.uses _ (by simp [libraryUses])) (by len) (by len) (by omega) (by omega)
  effect 6; effect 18; effect 3
  calls doing_store g (B.uses _ (by simp [libraryUses])) (by len) (by len) (by omega) (by omega) (by omega)
  exact .skip

theorem call_on (B : Library R lv wl lo hi d ix) (hl : l.length + 2 ≤ capacity)
    (hr : r.length + 1 ≤ capacity) (h1 : m.start < a.toNat) (h2 : a.toNat + 8 ≤ m.limit)
    (h3 : a.toNat + 8 ≤ lo ∨ hi ≤ a.toNat) :
    Call (ix "on") (shape s (a :: l) r m) (shape s l r (m.setCell a.toNat (truth True))) := by
  have g := B.region
  refine B.coded.call g 20 rfl (by len) (by len) (by len) fun z q => ?_
  steps; effect 14; effect 3
  calls doing_store g (B.uses _ (by simp [libraryUses])) (by len) (by len) (by omega) (by omega) (by omega)
  exact .skip

theorem call_off (B : Library R lv wl lo hi d ix) (hl : l.length + 2 ≤ capacity)
    (hr : r.length + 1 ≤ capacity) (h1 : m.start < a.toNat) (h2 : a.toNat + 8 ≤ m.limit)
    (h3 : a.toNat + 8 ≤ lo ∨ hi ≤ a.toNat) :
    Call (ix "off") (shape s (a :: l) r m) (shape s l r (m.setCell a.toNat (truth False))) := by
  have g := B.region
  refine B.coded.call g 21 rfl (by len) (by len) (by len) fun z q => ?_
  steps; effect 15; effect 3
  calls doing_store g (B.uses _ (by simp [libraryUses])) (by len) (by len) (by omega) (by omega) (by omega)
  exact .skip

theorem call_twoComma (B : Library R lv wl lo hi d ix) (hm : m.limit < 2 ^ 63) (hl : l.length + 5 ≤ capacity)
    (hr : r.length + 2 ≤ capacity) (hd : SoundSpace m) (h1 : m.start < m.here) (h2 : m.here + 16 ≤ m.limit)
    (h3 : m.here + 16 ≤ lo ∨ hi ≤ m.here) :
    Call (ix "2,") (shape s (y :: x :: l) r m)
      (shape s l r ((({ m with len := m.len + 16 } : DataSpace).setCell m.here y).setCell (m.here + 8) x)) := by
  have g := B.region
  refine B.coded.call g 12 rfl (by len) (by len) (by len) fun z q => ?_
  have e : (BitVec.ofNat 64 m.here).toNat = m.here := by simp; omega
  steps
  calls doing_here (B.uses _ (by simp [libraryUses])) (by len) (by len)
  number
  calls doing_cells (B.uses _ (by simp [libraryUses])) (by len) (by len) (by decide)
  calls doing_allot (x := 16) (B.uses _ (by simp [libraryUses])) (by len) (by len) hd (by omega) h2
  colon call_twoStore B hm (by len) (by len) (by rw [e]; exact h1) (by rw [e]; exact h2) (by rw [e]; exact h3)
  exact .last (by rw [e])

theorem call_cComma (B : Library R lv wl lo hi d ix) (hm : m.limit < 2 ^ 63) (hl : l.length + 3 ≤ capacity)
    (hr : r.length + 1 ≤ capacity) (hd : SoundSpace m) (h1 : m.start < m.here) (h2 : m.here + 1 ≤ m.limit)
    (h3 : m.here < lo ∨ hi ≤ m.here) :
    Call (ix "c,") (shape s (x :: l) r m)
      (shape s l r (({ m with len := m.len + 1 } : DataSpace).setByte m.here (x.setWidth 8))) := by
  have g := B.region
  refine B.coded.call g 15 rfl (by len) (by len) (by len) fun z q => ?_
  have e : (BitVec.ofNat 64 m.here).toNat = m.here := by simp; omega
  steps
  calls doing_here (B.uses _ (by simp [libraryUses])) (by len) (by len)
  number
  calls doing_allot (x := 1) (B.uses _ (by simp [libraryUses])) (by len) (by len) hd (by omega) h2
  calls doing_cStore (B.uses _ (by simp [libraryUses])) (by len) (by len) (by rw [e]; exact h1) (by rw [e]; exact h2)
    (by rw [e]; exact h3)
  exact .last (by rw [e])

theorem call_count (B : Library R lv wl lo hi d ix) (hl : l.length + 3 ≤ capacity)
    (hr : r.length + 1 ≤ capacity) (h1 : m.start ≤ a.toNat) (h2 : a.toNat < m.limit) :
    Call (ix "count") (shape s (a :: l) r m) (shape s ((m.bytes a.toNat).setWidth 64 :: (a + 1) :: l) r m) := by
  have g := B.region
  refine B.coded.call g 17 rfl (by len) (by len) (by len) fun z q => ?_
  steps; effect 1
  calls doing_cFetch (B.uses _ (by simp [libraryUses])) (by len) (by len) (by omega) (by omega)
  effect 3; number; effect 18; effect 3
  exact .last (by rw [wrap_near]; rfl)

theorem call_append (B : Library R lv wl lo hi d ix) (hm : m.limit < 2 ^ 63) (hl : l.length + 5 ≤ capacity)
    (hr : r.length + 4 ≤ capacity) {u c : Cell} (hu : 0 ≤ u.toInt) (h1 : m.start < a.toNat)
    (h2 : a.toNat + u.toNat ≤ m.limit) (h3 : m.start < c.toNat)
    (h4 : c.toNat + 1 + (m.bytes c.toNat).toNat + u.toNat ≤ m.limit)
    (h5 : c.toNat + 1 + (m.bytes c.toNat).toNat + u.toNat ≤ lo ∨ hi ≤ c.toNat) :
    ∃ m', Call (ix "append") (shape s (c :: u :: a :: l) r m) (shape s l r m') ∧ SameShape m m' ∧
      m'.bytes c.toNat = BitVec.ofNat 8 ((m.bytes c.toNat).toNat + u.toNat) ∧
      (∀ i, i < u.toNat → m'.bytes (c.toNat + 1 + (m.bytes c.toNat).toNat + i) = m.bytes (a.toNat + i)) ∧
      (∀ q, q ≠ c.toNat → q < c.toNat + 1 + (m.bytes c.toNat).toNat ∨
        c.toNat + 1 + (m.bytes c.toNat).toNat + u.toNat ≤ q → m'.bytes q = m.bytes q) := by
  have g := B.region
  generalize hn : (m.bytes c.toNat).toNat = N at *
  have hN : N < 256 := by have := (m.bytes c.toNat).isLt; omega
  have hb : ((m.bytes c.toNat).setWidth 64 : Cell).toNat = N := by simp [hn]; omega
  have e2 : (wrap ((c + 1).toInt + ((m.bytes c.toNat).setWidth 64 : Cell).toInt)).toNat = c.toNat + 1 + N := by
    rw [wrap_near, wrap, BitVec.ofInt_toInt]; bv_omega
  obtain ⟨m', f1, f2, f3, f4⟩ := doing_move (cfg := cfg) (n := n) (R := R) (lv := lv) (wl := wl) (lo := lo) (hi := hi)
    (k := k) (d := d) (m := m) (a := a) (u := u)
    (b := wrap ((c + 1).toInt + ((m.bytes c.toNat).setWidth 64 : Cell).toInt)) (B.uses "move" (by simp [libraryUses]))
    hm hu h1 h2 (by rw [e2]; omega) (by rw [e2]; omega) (by rw [e2]; omega)
  rw [e2] at f3 f4
  have hc : m'.bytes c.toNat = m.bytes c.toNat := f4 _ (by omega)
  have hlim : m'.limit = m.limit := by simp only [DataSpace.limit, f2.start, f2.cap]
  refine ⟨m'.setByte c.toNat (BitVec.ofNat 8 (N + u.toNat)), ?_, ?_, ?_, ?_, ?_⟩
  · refine B.coded.call g 19 rfl (by len) (by len) (by len) fun z q => ?_
    steps
    calls doing_twoToR (B.uses _ (by simp [libraryUses])) (by len) (by len)
    calls doing_twoRFetch (B.uses _ (by simp [libraryUses])) (by len) (by len)
    colon call_count B (by len) (by len) (by omega) (by omega)
    effect 18; effect 3
    calls f1 s l _ (by len) (by len)
    calls doing_twoRFrom (B.uses _ (by simp [libraryUses])) (by len) (by len)
    effect 1
    calls doing_toR (B.uses _ (by simp [libraryUses])) (by len) (by len)
    calls doing_cFetch (B.uses _ (by simp [libraryUses])) (by len) (by len) (by rw [f2.start]; omega) (by omega)
    effect 18
    calls doing_rFrom (B.uses _ (by simp [libraryUses])) (by len) (by len)
    calls doing_cStore (B.uses _ (by simp [libraryUses])) (by len) (by len) (by rw [f2.start]; omega) (by omega) (by omega)
    refine .last ?_
    congr 2
    rw [hc, wrap_near, wrap, BitVec.ofInt_toInt]
    apply BitVec.eq_of_toNat_eq
    simp only [BitVec.toNat_setWidth, BitVec.toNat_add, BitVec.toNat_ofNat]
    rw [hn]; omega
  · exact ⟨f2.start, f2.cap, f2.len⟩
  · simp [DataSpace.setByte]
  · intro i hi
    simp only [DataSpace.setByte]
    rw [if_neg (by omega), f3 i hi]
  · intro q hq h
    simp only [DataSpace.setByte]
    rw [if_neg hq, f4 q h]

/-- Memory with `N` bytes from `a` on set to `v`. -/
def Spec.filled (m : DataSpace) (a : Nat) (v : Byte) (N : Nat) : DataSpace :=
  { m with bytes := fun q => if a ≤ q ∧ q < a + N then v else m.bytes q }

theorem call_fill (B : Library R lv wl lo hi d ix) (hm : m.limit < 2 ^ 63) (hl : l.length + 5 ≤ capacity)
    (hr : r.length + 4 ≤ capacity) {u c : Cell} (hu : 0 < u.toInt) (h1 : m.start < a.toNat)
    (h2 : a.toNat + u.toNat ≤ m.limit) (h3 : a.toNat + u.toNat ≤ lo ∨ hi ≤ a.toNat) :
    Call (ix "fill") (shape s (c :: u :: a :: l) r m) (shape s l r (filled m a.toNat (c.setWidth 8) u.toNat)) := by
  have g := B.region
  have hu0 : 0 < u.toNat := by
    by_cases h : u.toNat = 0
    · rw [show u = 0 from BitVec.eq_of_toNat_eq h] at hu; simp at hu
    · omega
  have e0 : filled m a.toNat (c.setWidth 8) 0 = m := by
    simp only [filled]
    congr 1
    funext q; rw [if_neg (by omega)]
  have key : ∀ z tok, Go (.loop false false tok (code ix ["2dup", "i", "+", "c!"]))
      (shape s (0 :: u :: a :: c :: l) (z :: r) (filled m a.toNat (c.setWidth 8) 0))
      (shape s (a :: c :: l) (z :: r) (filled m a.toNat (c.setWidth 8) u.toNat)) := by
    intro z tok
    refine Going.doLoop g (N := u.toNat) (S := fun _ => s) (L := fun _ => a :: c :: l)
      (M := fun j => filled m a.toNat (c.setWidth 8) j) (by simp) u.isLt hu0 (fun _ _ => by len) (by len) (by len)
      (fun j hj => ?_)
    have e1 : (wrap (a.toInt + ((0 : Cell) + BitVec.ofNat 64 j).toInt)).toNat = a.toNat + j := by
      rw [wrap_near, wrap, BitVec.ofInt_toInt]; bv_omega
    steps; effect 9
    colon calling_index g (B.uses _ (by simp [libraryUses])) (by len) (by len)
    effect 18
    calls doing_cStore (B.uses _ (by simp [libraryUses])) (by len) (by len) (by rw [e1]; simp only [filled]; omega)
      (by rw [e1]; simp only [filled, DataSpace.limit] at *; omega) (by omega)
    refine .last ?_
    rw [e1]
    congr 1
    simp only [filled, DataSpace.setByte]
    congr 1
    funext q
    by_cases h : q = a.toNat + j
    · rw [if_pos h, if_pos (by omega)]
    · rw [if_neg h]
      by_cases h2 : a.toNat ≤ q ∧ q < a.toNat + j
      · rw [if_pos h2, if_pos (by omega)]
      · rw [if_neg h2, if_neg (by omega)]
  rw [e0] at key
  refine B.coded.call g 16 rfl (by len) (by len) (by len) fun z q => ?_
  steps; effect 3; effect 1; effect 31
  refine Going.seq (Going.elseTrue g (by len) (by len) (truth_ne hu) (t := shape s (a :: c :: l) (z :: r)
    (filled m a.toNat (c.setWidth 8) u.toNat)) ?_) ?_
  · calls doing_toR (B.uses _ (by simp [libraryUses])) (by len) (by len)
    effect 3
    calls doing_rFrom (B.uses _ (by simp [libraryUses])) (by len) (by len)
    number
    exact Going.seq (key z _) .skip
  · effect 10
    exact .skip

theorem call_fillNone (B : Library R lv wl lo hi d ix) (hl : l.length + 4 ≤ capacity)
    (hr : r.length + 1 ≤ capacity) {u c : Cell} (hu : u.toInt ≤ 0) :
    Call (ix "fill") (shape s (c :: u :: a :: l) r m) (shape s l r m) := by
  have g := B.region
  refine B.coded.call g 16 rfl (by len) (by len) (by len) fun z q => ?_
  steps; effect 3; effect 1; effect 31
  rw [truth_zero (show ¬ u.toInt > 0 by omega)]
  refine Going.seq (Going.elseFalse g (by len) (by len) (t := shape s (c :: a :: l) (z :: r) m) ?_) ?_
  · effect 2
    exact .skip
  · effect 10
    exact .skip

theorem call_space (B : Library R lv wl lo hi d ix) (hl : l.length < capacity) (hr : r.length < capacity) :
    Call (ix "space") (shape s l r m) (shape (printed s [32]) l r m) := by
  have g := B.region
  refine B.coded.call g 2 rfl (by len) (by len) (by len) fun z q => ?_
  steps; number
  calls doing_emit (B.uses _ (by simp [libraryUses])) (by len) (by len)
  exact .last rfl

theorem call_cr (B : Library R lv wl lo hi d ix) (hl : l.length < capacity) (hr : r.length < capacity) :
    Call (ix "cr") (shape s l r m) (shape (printed s [10]) l r m) := by
  have g := B.region
  refine B.coded.call g 8 rfl (by len) (by len) (by len) fun z q => ?_
  steps; number
  calls doing_emit (B.uses _ (by simp [libraryUses])) (by len) (by len)
  exact .last rfl

theorem printed_printed (s : VM) (x y : List Byte) : printed (printed s x) y = printed s (x ++ y) := by
  simp only [printed, Option.map_map]
  congr 2
  funext z; simp

theorem printed_nil (s : VM) : printed s [] = s := by
  simp [printed]

theorem going_spaces (B : Library R lv wl lo hi d ix) (hl : l.length + 4 ≤ capacity) (hr : r.length + 2 ≤ capacity)
    {u : Cell} : ∀ (c : Nat) (j : Cell) (s : VM), (u.toInt - j.toInt).toNat = c →
    Go (.whileLoop (code ix ["2dup", ">"]) (code ix ["1+", "space"])) (shape s (j :: u :: l) r m)
      (shape (printed s (List.replicate c 32)) (if j.toInt < u.toInt then u :: u :: l else j :: u :: l) r m) := by
  have g := B.region
  intro c
  induction c with
  | zero =>
    intro j s hj
    have h : ¬ u.toInt > j.toInt := by omega
    rw [if_neg h, List.replicate_zero, printed_nil]
    refine Going.whileEnd g (by len) (by len) ?_
    steps
    effect 9; effect 26
    exact .last (by rw [truth_zero h])
  | succ c ih =>
    intro j s hj
    have h : u.toInt > j.toInt := by omega
    have e : (wrap (j.toInt + 1)).toInt = j.toInt + 1 := by
      have := BitVec.toInt_lt (x := u); have := BitVec.le_toInt (x := j)
      simp only [wrap, BitVec.toInt_ofInt]
      rw [Int.bmod_eq_of_le] <;> omega
    refine Going.whileNext g (f := truth (u.toInt > j.toInt)) (l := j :: u :: l) (u := shape (printed s [32]) (wrap (j.toInt + 1) :: u :: l) r m)
      (by len) (by len) (truth_ne h) (s := s) (r := r) (m := m) ?_ ?_ ?_
    · steps
      effect 9; effect 26
      exact .skip
    · steps
      effect 16
      colon call_space B (by len) (by len)
      exact .skip
    · have := ih (wrap (j.toInt + 1)) (printed s [32]) (by omega)
      rw [printed_printed, e] at this
      rw [if_pos h]
      split at this
      · exact this
      · rw [show wrap (j.toInt + 1) = u from BitVec.eq_of_toInt_eq (by omega)] at this ⊢
        exact this

theorem call_spaces (B : Library R lv wl lo hi d ix) (hl : l.length + 4 ≤ capacity) (hr : r.length + 3 ≤ capacity) {u : Cell} :
    Call (ix "spaces") (shape s (u :: l) r m) (shape (printed s (List.replicate u.toInt.toNat 32)) l r m) := by
  have g := B.region
  refine B.coded.call g 3 rfl (by len) (by len) (by len) fun z q => ?_
  steps; number
  refine Going.seq (going_spaces B (by len) (by len) u.toInt.toNat 0 s (by simp)) ?_
  split
  · effect 10
    exact .skip
  · effect 10
    exact .skip

end
end Verif
