import Verif.Spec.Core
import Verif.Lemmas.Image
import Verif.Lemmas.StandCore

/-!
# The text of core.fth gives the code of the library
-/

namespace Verif
open Spec

/-- Whether two programs are the same. Programs with `case` are not looked at. -/
def Spec.Stmt.sameB : Stmt → Stmt → Bool
  | .skip, .skip => true
  | .seq p q, .seq p' q' => p.sameB p' && q.sameB q'
  | .word i, .word j => Nat.beq i j
  | .lit v, .lit w => decide (v = w)
  | .flt v, .flt w => decide (v = w)
  | .str a bs, .str a' bs' => decide (a = a') && decide (bs = bs')
  | .exit, .exit => true
  | .leave, .leave => true
  | .ifThen p, .ifThen p' => p.sameB p'
  | .ifElse p q, .ifElse p' q' => p.sameB p' && q.sameB q'
  | .untilLoop p, .untilLoop p' => p.sameB p'
  | .againLoop p, .againLoop p' => p.sameB p'
  | .whileLoop p q, .whileLoop p' q' => p.sameB p' && q.sameB q'
  | .loop a b c p, .loop a' b' c' p' => decide (a = a') && decide (b = b') && decide (c = c') && p.sameB p'
  | _, _ => false

theorem sameB_eq : ∀ p q : Stmt, p.sameB q = true → p = q := by
  intro p q
  induction p, q using Spec.Stmt.sameB.induct with
  | case1 => intros; rfl
  | case2 p q p' q' ih1 ih2 =>
    intro h
    simp only [Stmt.sameB, Bool.and_eq_true] at h
    rw [ih1 h.1, ih2 h.2]
  | case3 i j =>
    intro h
    rw [Nat.eq_of_beq_eq_true h]
  | case4 v w => intro h; rw [of_decide_eq_true h]
  | case5 v w => intro h; rw [of_decide_eq_true h]
  | case6 a bs a' bs' =>
    intro h
    simp only [Stmt.sameB, Bool.and_eq_true, decide_eq_true_eq] at h
    rw [h.1, h.2]
  | case7 => intros; rfl
  | case8 => intros; rfl
  | case9 p p' ih => intro h; rw [ih h]
  | case10 p q p' q' ih1 ih2 =>
    intro h
    simp only [Stmt.sameB, Bool.and_eq_true] at h
    rw [ih1 h.1, ih2 h.2]
  | case11 p p' ih => intro h; rw [ih h]
  | case12 p p' ih => intro h; rw [ih h]
  | case13 p q p' q' ih1 ih2 =>
    intro h
    simp only [Stmt.sameB, Bool.and_eq_true] at h
    rw [ih1 h.1, ih2 h.2]
  | case14 a b c p a' b' c' p' ih =>
    intro h
    simp only [Stmt.sameB, Bool.and_eq_true, decide_eq_true_eq] at h
    rw [h.1.1.1, h.1.1.2, h.1.2, ih h.2]
  | case15 p q =>
    intro h
    unfold Stmt.sameB at h
    split at h <;> first | (cases h; done) | grind

/-- The programs of core.fth that theorems are about. -/
def corePrograms (ix : String → Nat) : List (String × Stmt) :=
  library ix ++ sourceCode ix ++ readerCode ix ++ loaderCode ix ++ definers bootRefs ix ++
  [("get", getCode ix), ("release", releaseCode ix)]

def specsOf (ps : List (String × Stmt)) : List (Nat × Stmt) := ps.map fun e => (keyOf (nameCodes e.1) 0, e.2)

/-- The code of the programs is between the two addresses. -/
def codedO (ix : String → Nat) (l : Outline) (o lo hi : Nat) (defs : List (String × Stmt)) : Bool :=
  defs.all fun e => match defAt (ix e.1) l.defs with
    | some d => Stmt.sameB d.prog e.2 && Nat.ble (o + lo) d.dfa && Nat.ble (e.2.next d.dfa + 8) (o + hi)
    | none => false

def placedO (ix : String → Nat) (l : Outline) (o : Nat) (e : String × Stmt) (a : Nat) : Bool :=
  match defAt (ix e.1) l.defs with
    | some d => Stmt.sameB d.prog e.2 && Nat.beq (o + a) d.dfa
    | none => false

def usesO (ix : String → Nat) (l : Outline) (names : List String) : Bool :=
  names.all fun n => match rowAt (ix n) l.rows with
    | some r => decide (primOf n = some r.action)
    | none => false

def dataO (ix : String → Nat) (l : Outline) (o : Nat) (n : String) (p : Prim) (a : Nat) : Bool :=
  match rowAt (ix n) l.rows with
    | some r => decide (r.action = p) && Nat.beq r.dfa (o + a)
    | none => false

def namesO (ix : String → Nat) (l : Outline) (names : List String) : Bool :=
  names.all fun n => decide (lookup (keyOf (nameCodes n) 0) l.rows = some (ix n))

/-- The name of the marker at the end. -/
def coreMark : List Nat := [45, 119, 111, 114, 107]

/-- What core.fth defines is there, `o` bytes further on. -/
def coreB (ix : String → Nat) (o : Nat) (l : Outline) : Bool :=
  Nat.ble o 16 && l.stack.isEmpty && namesO ix l coreNames &&
  usesO ix l (libraryUses ++ sourceUses ++ readerUses ++ loaderUses ++ doesUses ++ facilityUses) &&
  codedO ix l o 4160 7032 (library ix) && codedO ix l o 4160 7032 (definers bootRefs ix) &&
  codedO ix l o 9536 9960 (sourceCode ix) && codedO ix l o 9960 10120 (readerCode ix) && codedO ix l o 10152 10520 (loaderCode ix) &&
  placedO ix l o ("get", getCode ix) 8512 && placedO ix l o ("release", releaseCode ix) 8616 &&
  dataO ix l o "src-stack" (.core .pVar) 9240 && dataO ix l o "load-line#" (.core .pVar) 10120 && dataO ix l o "r/o" (.core .pConst) 8880 &&
  l.facts.contains (o + 9240, 16) && l.facts.contains (o + 9248, 0) && l.facts.contains (o + 8880, 0) &&
  plainRows l.rows [ix "["] && Nat.beq (ix "leave") 13 && Nat.beq (ix "_does") bootRefs.doesRt

def coreOk : Bool :=
  match loadText bootRefs 13 (specsOf (corePrograms imageIx)) 1000 (bootOutline.withText coreCodes) with
  | some l => match markStep coreMark l with
    | some l' => coreB imageIx 0 l' && (skipBlanks l'.text).isEmpty
    | none => false
  | none => false

set_option maxRecDepth 1000000 in
theorem core_ok : coreOk = true := by decide +kernel

section
variable {G : Ground} {l : Outline} {s : VM} {ix : String → Nat} {o : Nat}

theorem Stand.coded (h : Stand G l s) (ha : G.start % 8 = 0) {lo hi : Nat} {defs : List (String × Stmt)}
    (hc : codedO ix l o lo hi defs = true) : Coded s.refs G.lv s.wl (G.start + o + lo) (G.start + o + hi) s.ds ix defs := by
  intro e he
  have := List.all_eq_true.1 hc e he
  split at this
  case h_2 => cases this
  rename_i d hd
  simp only [Bool.and_eq_true, Nat.ble_eq] at this
  obtain ⟨⟨h1, h2⟩, h3⟩ := this
  obtain ⟨k1, k2⟩ := defAt_mem _ hd
  obtain ⟨⟨w, w1, w2, w3⟩, k3, -⟩ := h.code d k1
  rw [sameB_eq _ _ h1] at k3
  refine ⟨w, k2 ▸ w1, w2, by omega, ?_, by rw [w3]; exact k3⟩
  simp only [Stmt.next]
  rw [Stmt.place_next, w3, Stmt.next_shift ha]
  omega

theorem Stand.placed (h : Stand G l s) {e : String × Stmt} {a : Nat} (hc : placedO ix l o e a = true) :
    (∃ w, s.wl.words[ix e.1]? = some w ∧ w.action = .core .nest ∧ w.dfa = G.start + o + a) ∧
    (Stmt.seq (e.2.place (G.start + o + a)) .exit).At s.refs G.lv s.ds (G.start + o + a) := by
  simp only [placedO] at hc
  split at hc
  case h_2 => cases hc
  rename_i d hd
  simp only [Bool.and_eq_true] at hc
  obtain ⟨k1, k2⟩ := defAt_mem _ hd
  have := h.code d k1
  rw [sameB_eq _ _ hc.1, k2, ← Nat.eq_of_beq_eq_true hc.2, ← Nat.add_assoc] at this
  exact ⟨this.1, this.2.1⟩

theorem Stand.uses (h : Stand G l s) {names : List String} (hc : usesO ix l names = true) :
    ∀ n, n ∈ names → Builtin s.wl (ix n) n := by
  intro n hn
  have := List.all_eq_true.1 hc n hn
  split at this
  case h_2 => cases this
  rename_i r hr
  obtain ⟨w, w1, w2, -⟩ := h.row hr
  exact ⟨w, w1, by rw [of_decide_eq_true this, w2.action]⟩

theorem Stand.datum (h : Stand G l s) {n : String} {p : Prim} {a : Nat} (hc : dataO ix l o n p a = true) :
    ∃ w, s.wl.words[ix n]? = some w ∧ w.action = p ∧ w.dfa = G.start + o + a := by
  simp only [dataO] at hc
  split at hc
  case h_2 => cases hc
  rename_i r hr
  simp only [Bool.and_eq_true, decide_eq_true_eq] at hc
  obtain ⟨w, w1, w2, -⟩ := h.row hr
  exact ⟨w, w1, w2.action.trans hc.1, by rw [w2.dfa, Nat.eq_of_beq_eq_true hc.2, Nat.add_assoc]⟩

theorem Stand.fact (h : Stand G l s) {a v : Nat} (hc : l.facts.contains (o + a, v) = true) :
    s.ds.cellAt (G.start + o + a) = BitVec.ofNat 64 v := by
  rw [Nat.add_assoc]
  exact (h.facts (o + a, v) (by simpa using hc)).1

theorem Stand.named (h : Stand G l s) {names : List String} (hc : namesO ix l names = true) :
    ∀ n, n ∈ names → Newest s (Verif.ascii n) (some (ix n)) := by
  intro n hn
  have := of_decide_eq_true (List.all_eq_true.1 hc n hn)
  have h2 := h.names (Verif.ascii n)
  rw [show keyOf (codesOf (Verif.ascii n)) 0 = keyOf (nameCodes n) 0 from rfl, this] at h2
  exact h2

theorem usesO_append {a b : List String} (h : usesO ix l (a ++ b) = true) : usesO ix l a = true ∧ usesO ix l b = true := by
  simpa only [usesO, List.all_append, Bool.and_eq_true] using h

theorem Stand.runtime (h : Stand G l s) (g : G.Ok) : Runtime s.refs G.lv s.wl := by
  rw [h.refs]
  intro r hr
  obtain ⟨w, w1, w2⟩ := g.compiler.runtime r hr
  exact ⟨w, h.old g w1, w2⟩

theorem Stand.loaded (h : Stand G l s) (hW : Waits s) (g : G.Ok) (hlv : G.lv = 13) (hR : G.refs = bootRefs) (hc : coreB ix o l = true) :
    CoreLoaded (G.start + o) ix s := by
  simp only [coreB, Bool.and_eq_true] at hc
  obtain ⟨⟨⟨⟨⟨⟨⟨⟨⟨⟨⟨⟨⟨⟨⟨⟨⟨⟨⟨c1, c2⟩, c3⟩, c4⟩, c5⟩, c6⟩, c7⟩, c8⟩, c9⟩, c10⟩, c11⟩, c12⟩, c13⟩, c14⟩, c15⟩, c16⟩, c17⟩, c18⟩, c19⟩, c20⟩ := hc
  obtain ⟨u, u6⟩ := usesO_append c4
  obtain ⟨u, u5⟩ := usesO_append u
  obtain ⟨u, u4⟩ := usesO_append u
  obtain ⟨u, u3⟩ := usesO_append u
  obtain ⟨u1, u2⟩ := usesO_append u
  have ho : o ≤ 16 := Nat.le_of_ble_eq_true c1
  have hl : ix "leave" = G.lv := (Nat.eq_of_beq_eq_true c19).trans hlv.symm
  have hd : bootRefs.doesRt = ix "_does" := (Nat.eq_of_beq_eq_true c20).symm
  have ha : G.start % 8 = 0 := by have := g.aligned; omega
  have g1 := g.pos
  have g2 := g.small
  have g3 : 12288 ≤ G.cap := g.room
  have s1 := h.start
  have s2 := h.cap
  have hlim := h.limit
  have reg : ∀ lo hi, hi ≤ 11000 → Region s.ds (G.start + o + lo) (G.start + o + hi) := fun lo hi hh => ⟨by omega, by omega, by omega⟩
  have rt := h.runtime g
  have eq : Equipped G.lv (G.start + o + 4160) (G.start + o + 7032) ix s := ⟨rt, reg _ _ (by decide), h.uses u1, h.coded ha c5⟩
  have sv : SavesSources G.lv (G.start + o + 4160) (G.start + o + 7032) (G.start + o + 9536) (G.start + o + 9960) (G.start + o + 9240) ix s :=
    ⟨eq, reg _ _ (by decide), h.uses u2, h.coded ha c7, h.datum c12, by omega, by omega, .inr (by omega), .inl (by omega)⟩
  have rd : HasReader G.lv (G.start + o + 9960) (G.start + o + 10120) ix s := ⟨rt, reg _ _ (by decide), h.uses u3, h.coded ha c8⟩
  obtain ⟨x1, x2⟩ := h.placed c10
  obtain ⟨y1, y2⟩ := h.placed c11
  refine ⟨h.listening hW.1, h.base, ?_, h.named c3, ?_, ?_, ?_, ?_⟩
  · rw [h.items, List.isEmpty_iff.1 c2]; rfl
  · rw [hl]
    refine ⟨sv, rd, reg _ _ (by decide), h.uses u4, h.coded ha c9, h.datum c13, ?_, ?_, by omega, by omega, ?_, ?_⟩
    · obtain ⟨w, w1, w2, w3⟩ := h.datum c14
      exact ⟨w, w1, w2, by omega, by omega, by rw [w3]; exact h.fact c17⟩
    · simp only [plainRows] at c18
      split at c18
      case h_2 => cases c18
      rename_i r hr
      simp only [Bool.and_true, decide_eq_true_eq] at c18
      obtain ⟨w, w1, w2, -⟩ := h.row hr
      have := (List.getElem?_eq_some_iff.1 w1).1
      have := h.words_length
      exact ⟨w, w1, w2.comp.trans c18, by omega⟩
    · intro x hx
      simp only [List.mem_cons, List.not_mem_nil, or_false] at hx
      rcases hx with rfl | rfl | rfl | rfl | rfl <;> dsimp only <;> omega
    · intro x hx
      simp only [List.mem_cons, List.not_mem_nil, or_false] at hx
      rcases hx with rfl | rfl <;> dsimp only <;> omega
  · have e : G.start + o + 9240 + 8 = G.start + o + 9248 := by omega
    exact ⟨Nat.zero_le _, h.fact c15, by rw [e]; exact h.fact c16, by simp⟩
  · rw [hl]
    refine ⟨eq, h.uses u5, by rw [h.refs, hR]; exact hd, ?_⟩
    have := h.coded ha c6
    rw [h.refs, hR] at this ⊢
    exact this
  · rw [hl]
    exact ⟨rt, reg _ _ (by decide), h.uses u6, ⟨by omega, by omega⟩, ⟨by omega, by omega⟩, .inl (by omega), x1, y1, x2, y2⟩

/-- The machine when it has been set up. -/
theorem core_loads {b cap : Nat} (hb : Site b cap) (cfg : Cfg) (depth : Nat) :
    ∃ s N, (∀ fuel, N ≤ fuel → VM.new cfg (depth + 2) fuel b cap = .ok s) ∧ s.ds.start = b ∧
      s.ds.cap = cap ∧ CoreLoaded b imageIx s := by
  obtain ⟨s0, a1, a2, a3⟩ := boot_built hb (ctx cfg (depth + 2))
  have g := boot_ground hb a3
  have hc := core_ok
  unfold coreOk at hc
  cases hl : loadText bootRefs 13 (specsOf (corePrograms imageIx)) 1000 (bootOutline.withText coreCodes) with
  | none => rw [hl] at hc; cases hc
  | some l =>
    rw [hl] at hc
    dsimp only at hc
    cases hm : markStep coreMark l with
    | none => rw [hm] at hc; cases hc
    | some l' =>
      rw [hm] at hc
      simp only [Bool.and_eq_true] at hc
      obtain ⟨r1, r2, r3⟩ := boot_rest
      obtain ⟨t0, b1, b2, b3⟩ := boot_stand hb a3 a2 (fun _ _ => rfl) r1 r2 r3 cfg (depth + 2)
      obtain ⟨t1, ⟨n, m, d1⟩, d2, d3⟩ := load_sound (cfg := cfg) (depth := depth) g 1000 b2 b3 hl
      obtain ⟨t2, ⟨n2, m2, e1⟩, e2, e3, -⟩ := marker_turn (cfg := cfg) (depth := depth) g d2 d3 hm
      obtain ⟨s, f1, f2, f3, -⟩ := end_turn (cfg := cfg) (depth := depth + 2) e2 e3 hc.2
      have hL := f2.loaded f3 g rfl rfl (ix := imageIx) (o := 0) (l := { l' with text := [] }) hc.1
      refine ⟨s, 1 + n2 + n, ?_, f2.start, f2.cap, hL⟩
      intro fuel hf
      have e3 : loadStr cfg (depth + 2) fuel coreFth.toList s0 = .ok ((), s) := by
        rw [b1]
        obtain ⟨k, rfl⟩ : ∃ k, fuel = k + 1 + n2 + n := ⟨fuel - 1 - n2 - n, by omega⟩
        rw [d1, show k + 1 + n2 + m = k + m + 1 + n2 by omega, e1, show k + m + 1 + m2 = k + m + m2 + 1 by omega, f1]
      have e4 : getError s = .ok (none, s) := by
        show Except.ok (s.lastError, s) = _
        rw [f2.noError]
      simp only [VM.new, bind, M.bind, a1, e3, e4]
      rfl

end

end Verif
