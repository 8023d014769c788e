import Verif.Lemmas.Image
import Verif.Spec.Sources
import Verif.Spec.Reader
import Verif.Spec.Loader

/-!
# Checking by computation that code is there
-/

namespace Verif
open Spec

instance (d : DataSpace) (a v : Nat) : Decidable (CellIs d a v) := inferInstanceAs (Decidable ((d.cellAt a).toNat = v))

/-- Whether the code of a program is at `a`. Programs with `case` are not looked at. -/
def Spec.Stmt.atB (R : Refs) (lv : Nat) (d : DataSpace) : Stmt → Nat → Bool
  | .skip, _ => true
  | .seq p q, a => p.atB R lv d a && q.atB R lv d (p.next a)
  | .word i, a => decide (CellIs d a i)
  | .lit v, a => decide (CellIs d a R.lit) && decide (d.cellAt (a + 8) = v)
  | .flt v, a => decide (CellIs d a R.flit) && decide (d.cellAt (roundUp8 (a + 8)) = v)
  | .str adr bs, a => decide (CellIs d a R.sQuote) && decide (CellIs d (a + 8) bs.length) &&
      decide (d.bytesAt (a + 16) bs.length = bs) && decide (adr = a + 16)
  | .exit, a => decide (CellIs d a R.exit)
  | .leave, a => decide (CellIs d a lv)
  | .ifThen p, a => decide (CellIs d a R.zeroBranch) && decide (CellIs d (a + 8) (p.next (a + 16))) &&
      p.atB R lv d (a + 16)
  | .ifElse p q, a => decide (CellIs d a R.zeroBranch) && decide (CellIs d (a + 8) (p.next (a + 16) + 16)) &&
      p.atB R lv d (a + 16) &&
      decide (CellIs d (p.next (a + 16)) R.branch) &&
      decide (CellIs d (p.next (a + 16) + 8) (q.next (p.next (a + 16) + 16))) &&
      q.atB R lv d (p.next (a + 16) + 16)
  | .untilLoop p, a => p.atB R lv d a && decide (CellIs d (p.next a) R.zeroBranch) && decide (CellIs d (p.next a + 8) a)
  | .againLoop p, a => p.atB R lv d a && decide (CellIs d (p.next a) R.branch) && decide (CellIs d (p.next a + 8) a)
  | .whileLoop p q, a => p.atB R lv d a && decide (CellIs d (p.next a) R.zeroBranch) &&
      decide (CellIs d (p.next a + 8) (q.next (p.next a + 16) + 16)) && q.atB R lv d (p.next a + 16) &&
      decide (CellIs d (q.next (p.next a + 16)) R.branch) && decide (CellIs d (q.next (p.next a + 16) + 8) a)
  | .loop ask plus tok p, a => decide (tok = a + 8) && decide (CellIs d a (if ask then R.qdoRt else R.doRt)) &&
      decide (CellIs d (a + 8) (p.next (a + 16) + 16)) && p.atB R lv d (a + 16) &&
      decide (CellIs d (p.next (a + 16)) (if plus then R.plusLoopRt else R.loopRt)) &&
      decide (CellIs d (p.next (a + 16) + 8) (a + 16))
  | .case _, _ => false

theorem atB_at {R : Refs} {lv : Nat} {d : DataSpace} : ∀ (p : Stmt) (a : Nat), p.atB R lv d a = true → p.At R lv d a
  | .skip, _, _ => trivial
  | .seq p q, a, h => by
    simp only [Stmt.atB, Bool.and_eq_true] at h
    exact ⟨atB_at p _ h.1, atB_at q _ h.2⟩
  | .word i, a, h => by simpa only [Stmt.atB, Stmt.At, decide_eq_true_eq] using h
  | .lit v, a, h => by simpa only [Stmt.atB, Stmt.At, Bool.and_eq_true, decide_eq_true_eq] using h
  | .flt v, a, h => by simpa only [Stmt.atB, Stmt.At, Bool.and_eq_true, decide_eq_true_eq] using h
  | .str adr bs, a, h => by
    simp only [Stmt.atB, Bool.and_eq_true, decide_eq_true_eq] at h
    exact ⟨h.1.1.1, h.1.1.2, h.1.2, h.2⟩
  | .exit, a, h => by simpa only [Stmt.atB, Stmt.At, decide_eq_true_eq] using h
  | .leave, a, h => by simpa only [Stmt.atB, Stmt.At, decide_eq_true_eq] using h
  | .ifThen p, a, h => by
    simp only [Stmt.atB, Bool.and_eq_true, decide_eq_true_eq] at h
    exact ⟨h.1.1, h.1.2, atB_at p _ h.2⟩
  | .ifElse p q, a, h => by
    simp only [Stmt.atB, Bool.and_eq_true, decide_eq_true_eq] at h
    exact ⟨h.1.1.1.1.1, h.1.1.1.1.2, atB_at p _ h.1.1.1.2, h.1.1.2, h.1.2, atB_at q _ h.2⟩
  | .untilLoop p, a, h => by
    simp only [Stmt.atB, Bool.and_eq_true, decide_eq_true_eq] at h
    exact ⟨atB_at p _ h.1.1, h.1.2, h.2⟩
  | .againLoop p, a, h => by
    simp only [Stmt.atB, Bool.and_eq_true, decide_eq_true_eq] at h
    exact ⟨atB_at p _ h.1.1, h.1.2, h.2⟩
  | .whileLoop p q, a, h => by
    simp only [Stmt.atB, Bool.and_eq_true, decide_eq_true_eq] at h
    exact ⟨atB_at p _ h.1.1.1.1.1, h.1.1.1.1.2, h.1.1.1.2, atB_at q _ h.1.1.2, h.1.2, h.2⟩
  | .loop ask plus tok p, a, h => by
    simp only [Stmt.atB, Bool.and_eq_true, decide_eq_true_eq] at h
    exact ⟨h.1.1.1.1.1, h.1.1.1.1.2, h.1.1.1.2, atB_at p _ h.1.1.2, h.1.2, h.2⟩
  | .case _, _, h => by simp [Stmt.atB] at h

def codedB (R : Refs) (lv : Nat) (wl : Wordlist) (lo hi : Nat) (d : DataSpace) (ix : String → Nat)
    (defs : List (String × Stmt)) : Bool :=
  defs.all fun e => match wl.words[ix e.1]? with
    | some w => decide (w.action = .core .nest) && decide (lo ≤ w.dfa) &&
        decide ((Stmt.seq (e.2.place w.dfa) .exit).next w.dfa ≤ hi) && (Stmt.seq (e.2.place w.dfa) .exit).atB R lv d w.dfa
    | none => false

theorem codedB_coded {R : Refs} {lv : Nat} {wl : Wordlist} {lo hi : Nat} {d : DataSpace} {ix : String → Nat}
    {defs : List (String × Stmt)} (h : codedB R lv wl lo hi d ix defs = true) : Coded R lv wl lo hi d ix defs := by
  intro e he
  have := List.all_eq_true.mp h e he
  cases hw : wl.words[ix e.1]? with
  | none => rw [hw] at this; simp at this
  | some w =>
    rw [hw] at this
    simp only [Bool.and_eq_true, decide_eq_true_eq] at this
    exact ⟨w, rfl, this.1.1.1, this.1.1.2, this.1.2, atB_at _ _ this.2⟩

def usesB (wl : Wordlist) (ix : String → Nat) (l : List String) : Bool :=
  l.all fun name => match wl.words[ix name]? with
    | some w => decide (primOf name = some w.action)
    | none => false

theorem usesB_uses {wl : Wordlist} {ix : String → Nat} {l : List String} (h : usesB wl ix l = true) :
    ∀ name, name ∈ l → Builtin wl (ix name) name := by
  intro name hn
  have := List.all_eq_true.mp h name hn
  cases hw : wl.words[ix name]? with
  | none => rw [hw] at this; simp at this
  | some w =>
    rw [hw] at this
    exact ⟨w, hw, by simpa using this⟩

def runtimeB (R : Refs) (lv : Nat) (wl : Wordlist) : Bool :=
  (roles R lv).all fun r => match wl.words[r.1]? with
    | some w => decide (w.action = .core r.2)
    | none => false

theorem runtimeB_runtime {R : Refs} {lv : Nat} {wl : Wordlist} (h : runtimeB R lv wl = true) : Runtime R lv wl := by
  intro r hr
  have := List.all_eq_true.mp h r hr
  cases hw : wl.words[r.1]? with
  | none => rw [hw] at this; simp at this
  | some w =>
    rw [hw] at this
    exact ⟨w, rfl, by simpa using this⟩

/-- What is checked of the image. -/
def imageB (s : VM) : Bool :=
  decide (s.ds.start = 1024) && decide (s.ds.cap = 65536) && runtimeB s.refs (imageIx "leave") s.wl &&
  usesB s.wl imageIx libraryUses && codedB s.refs (imageIx "leave") s.wl 5184 7408 s.ds imageIx (library imageIx) &&
  usesB s.wl imageIx sourceUses && codedB s.refs (imageIx "leave") s.wl 10560 10984 s.ds imageIx (sourceCode imageIx) &&
  (match s.wl.words[imageIx "src-stack"]? with
    | some w => decide (w.action = .core .pVar) && decide (w.dfa = 10264)
    | none => false) && decide (s.ds.cellAt 10264 = 16) && decide (s.ds.cellAt 10272 = 0)

set_option maxRecDepth 100000 in
theorem image_imageB : imageB image = true := by decide +kernel

theorem image_equipped : Equipped (imageIx "leave") 5184 7408 imageIx image := by
  have h := image_imageB
  revert h
  generalize image = s
  intro h
  simp only [imageB, Bool.and_eq_true, decide_eq_true_eq] at h
  obtain ⟨⟨⟨⟨⟨⟨⟨⟨⟨h1, h2⟩, h4⟩, h5⟩, h6⟩, h7⟩, h8⟩, h9⟩, h10⟩, h11⟩ := h
  exact ⟨runtimeB_runtime h4, ⟨by omega, by omega, by omega⟩, usesB_uses h5, codedB_coded h6⟩

theorem image_savesSources : SavesSources (imageIx "leave") 5184 7408 10560 10984 10264 imageIx image := by
  have h := image_imageB
  have h0 := image_equipped
  revert h h0
  generalize image = s
  intro h h0
  simp only [imageB, Bool.and_eq_true, decide_eq_true_eq] at h
  obtain ⟨⟨⟨⟨⟨⟨⟨⟨⟨h1, h2⟩, h4⟩, h5⟩, h6⟩, h7⟩, h8⟩, h9⟩, h10⟩, h11⟩ := h
  refine ⟨h0, ⟨by omega, by omega, by omega⟩, usesB_uses h7, codedB_coded h8, ?_, by omega, ?_, .inr (by omega), .inl (by omega)⟩
  · split at h9
    · rename_i w hw
      simp only [Bool.and_eq_true, decide_eq_true_eq] at h9
      exact ⟨w, hw, h9.1, h9.2⟩
    · cases h9
  · simp only [DataSpace.limit]; omega

theorem image_saved : Saved image.ds 10264 [] := by
  have h := image_imageB
  revert h
  generalize image = s
  intro h
  simp only [imageB, Bool.and_eq_true, decide_eq_true_eq] at h
  exact ⟨by simp, h.1.2, h.2, by simp⟩

def readerB (s : VM) : Bool :=
  usesB s.wl imageIx readerUses && codedB s.refs (imageIx "leave") s.wl 10984 11144 s.ds imageIx (readerCode imageIx)

set_option maxRecDepth 100000 in
theorem image_readerB : readerB image = true := by decide +kernel

theorem image_hasReader : HasReader (imageIx "leave") 10984 11144 imageIx image := by
  have h := image_readerB
  have h0 := image_savesSources.equipped
  have h1 : image.ds.start = 1024 ∧ image.ds.cap = 65536 := ⟨rfl, rfl⟩
  revert h h0 h1
  generalize image = s
  intro h h0 h1
  simp only [readerB, Bool.and_eq_true] at h
  exact ⟨h0.words, ⟨by omega, by omega, by omega⟩, usesB_uses h.1, codedB_coded h.2⟩

def loaderB (s : VM) : Bool :=
  usesB s.wl imageIx loaderUses && codedB s.refs (imageIx "leave") s.wl 11176 11544 s.ds imageIx (loaderCode imageIx) &&
  (match s.wl.words[imageIx "load-line#"]? with
    | some w => decide (w.action = .core .pVar) && decide (w.dfa = 11144)
    | none => false) &&
  (match s.wl.words[imageIx "r/o"]? with
    | some w => decide (w.action = .core .pConst) && decide (w.dfa = 9904)
    | none => false) && decide (s.ds.cellAt 9904 = 0) &&
  (match s.wl.words[imageIx "["]? with
    | some w => decide (w.compSem = .word)
    | none => false)

set_option maxRecDepth 100000 in
theorem image_loaderB : loaderB image = true := by decide +kernel

theorem image_hasLoader : HasLoader (imageIx "leave") (5184, 7408) (10560, 10984) (10984, 11144) (11176, 11544) 10264 11144 imageIx image := by
  have h := image_loaderB
  have h0 := image_savesSources
  have h2 := image_hasReader
  have h1 : image.ds.start = 1024 ∧ image.ds.cap = 65536 := ⟨rfl, rfl⟩
  have hb : imageIx "[" = 65 := by decide +kernel
  revert h h0 h1 h2
  generalize image = s
  intro h h0 hx h2'
  have h1 : s.ds.start = 1024 ∧ s.ds.cap = 65536 := by assumption
  have h2 : HasReader (imageIx "leave") 10984 11144 imageIx s := by assumption
  simp only [loaderB, Bool.and_eq_true, decide_eq_true_eq] at h
  obtain ⟨⟨⟨⟨⟨k1, k2⟩, k3⟩, k4⟩, k5⟩, k6⟩ := h
  have hlim : s.ds.limit = 66560 := by simp only [DataSpace.limit]; omega
  refine ⟨h0, h2, ⟨by omega, by omega, by omega⟩, usesB_uses k1, codedB_coded k2, ?_, ?_, ?_, by omega, by omega, ?_, ?_⟩
  · split at k3
    · rename_i w hw
      simp only [Bool.and_eq_true, decide_eq_true_eq] at k3
      exact ⟨w, hw, k3.1, k3.2⟩
    · cases k3
  · split at k4
    · rename_i w hw
      simp only [Bool.and_eq_true, decide_eq_true_eq] at k4
      exact ⟨w, hw, k4.1, by omega, by omega, by rw [k4.2]; exact k5⟩
    · cases k4
  · split at k6
    · rename_i w hw
      simp only [decide_eq_true_eq] at k6
      exact ⟨w, hw, k6, by omega⟩
    · cases k6
  · intro x hx
    simp only [List.mem_cons, List.not_mem_nil, or_false] at hx
    rcases hx with rfl | rfl | rfl | rfl | rfl <;> dsimp only <;> omega
  · intro x hx
    simp only [List.mem_cons, List.not_mem_nil, or_false] at hx
    rcases hx with rfl | rfl <;> dsimp only <;> omega

end Verif
