import Verif.Lemmas.Does
import Verif.Props.Library
import Verif.Props.Dictionary

/-!
# C51: defining words made with `create` and `does>`
-/

namespace Verif
open Spec Stack

section
variable {R : Refs} {wl : Wordlist} {lv lo hi n i a p b : Nat} {k : Fin 5} {d : DataSpace} {s t u v s0 : VM} {cfg : Cfg}
  {ix : String → Nat} {l : List Cell} {x y : Cell} {tok : List Char}

/-- C51. A word made by a defining word pushes the address of its data and does what the code after `does>` says. The
meaning of that code is that of structured programs (C24), with any meaning `W` of the words it calls that the
interpreter agrees with. -/
theorem C51_runs {W : Nat → VM → VM → Prop} (g : Region d lo hi)
    (hW : ∀ i s t, Loaded R lv wl lo hi k d s → W i s t → Acts cfg (n + 1) i s t ∧ Loaded R lv wl lo hi k d t)
    {q : Stmt} (hm : MadeBy s i a p) (h1 : lo ≤ p) (h2 : q.next p ≤ hi) (hq : q.At R lv d p)
    (hs : Loaded R lv wl lo hi k d s) (hl : (data s).length < capacity) (hr : (ret s).length < capacity)
    (hb : ∀ x : Cell, ∃ u l, Sem W (.stmt q) (setRet (setData s (toCell a :: data s)) (x :: ret s)) .exit u ∧
      ret u = x :: l ∧ Alike t (setRet u l)) :
    Acts cfg (n + 1) i s t :=
  (call_does g hW hm h1 h2 hq hs hl hr hb).1

/-- C51. A word made by `create` pushes the address of its data. -/
theorem C51_created (hm : Created s i a) (hl : (data s).length < capacity) :
    Acts cfg (n + 1) i s (setData s (toCell a :: data s)) := by
  intro s1 hli hpc
  obtain ⟨w, w1, w2, w3⟩ := hm
  have hw : s1.wl.words[i]? = some w := by rw [hli.wl]; exact w1
  have hc : capacity = 64 := rfl
  have hd : s1.task.s.items = data s := hli.data
  have hp := push_holding s1.task.s (toCell a) (by rw [hd]; omega)
  rw [hd] at hp
  have ex : execWord cfg (n + 1) i s1 = .ok ((), s1.put (s1.task.s.push (toCell a)) s1.task.r s1.task.f (pc s1) i) := by
    rw [exec_word hw, w2]
    simp only [action, coreAction, pVar, M.bind_apply, getSt_apply, VM.at_task]
    rw [wordAt_ok (w := w) (by simpa using hw)]
    simp [VM.at, VM.put, w3, pc]
  refine ⟨_, _, ex, rfl, .refl _, ?_, by simp [pc, VM.put]⟩
  exact hli.update (by rw [hp]; exact hli.s.hold _ (by simp; omega)) hli.r hli.f (pc s1) i

/-- C51. Later defining words do not change words that are there: programs that leave names and markers alone
(see C52) keep what was made by `create`, and what was made by defining words. -/
theorem C51_kept {P : Prim → Prop} (h : Orderly cfg b P s t) (hd : Dict s) (hi : InSpace s) (hik : i < b) :
    (∀ a, Created s i a → Created t i a) ∧ ∀ a p, MadeBy s i a p → MadeBy t i a p := by
  refine ⟨fun a => ?_, fun a p => ?_⟩
  · rintro ⟨w, h1, h2⟩
    obtain ⟨_, _, h3⟩ := C52_words h hd hi hik h1
    exact ⟨_, h3, h2⟩
  · rintro ⟨w, h1, h2⟩
    obtain ⟨_, _, h3⟩ := C52_words h hd hi hik h1
    exact ⟨_, h3, h2⟩

/-- What a defining word has done when the code before `does>` has had its effect: there is one more word, made by
it, with the data the code before `does>` has laid down. -/
theorem defining (h : HasDefiners lv lo hi ix s) {name : String} {p q : Stmt} (j : Nat)
    (hj : (definers s.refs ix)[j]? = some (name, definer s.refs (ix "create") p q))
    (hpl : ∀ c, (definer s.refs (ix "create") p q).place c = definer s.refs (ix "create") p q)
    (hs : SoundSpace s.ds) (hh : hi ≤ s.ds.here) (hpc : pc s < 2 ^ 64)
    (hn : Naming s tok) (hr : (ret s).length < capacity)
    (e0 : execWord cfg (n + 1) (ix name) s = .ok ((), s0)) (e1 : step cfg (n + 1) s0 = .ok (true, u))
    {l' : List Cell} {m' : DataSpace} (hl' : l'.length ≤ capacity)
    (hp : SoundSpace u.ds → s.ds.here ≤ u.ds.here → u.ds.start = s.ds.start → u.ds.cap = s.ds.cap → ∀ z,
      Going cfg n s.refs lv s.wl lo hi s.cur s.ds p (shape u (data s) (z :: ret s) u.ds) (shape u l' (z :: ret s) m'))
    (hms : m'.start = u.ds.start) (hmc : m'.cap = u.ds.cap) (hmb : ∀ x, x < u.ds.here → m'.bytes x = u.ds.bytes x)
    (hm1 : u.ds.here ≤ m'.here) (room : m'.here + 8 ≤ u.ds.limit) :
    ∃ v, Steps cfg (n + 1) u v ∧ pc v = pc s ∧ data v = l' ∧ ret v = ret s ∧ HasDefiners lv lo hi ix v ∧
      OneMore s v ∧ MadeWith v s.wl.words.length u.ds.here (ix name) p ∧
      ∃ y : Cell, v.ds = m'.emit y := by
  have g := h.equipped.library.region
  obtain ⟨w, w1, w2, w3, w4, w5⟩ := h.coded _ (List.mem_of_getElem? hj)
  dsimp only at w1 w4 w5
  rw [hpl] at w4 w5
  have hR := h.equipped.words
  obtain ⟨b1, b2, b3, b4, b5, b6⟩ := definer_begins g h.equipped.loaded hR (h.uses "create" (by simp [doesUses])) w1 w2 w3 w4 w5
    ⟨hs.small, hs.inside⟩ hh hn hr e0 e1
  have hlast : u.wl.last = s.wl.words.length := by rw [b1.wl]; rfl
  have hlen : u.wl.words.length = s.wl.words.length + 1 := by rw [b1.wl]; simp [Wordlist.push]
  have hw2 : u.wl.words[u.wl.last]? = some { Word.new (.core .pVar) .word s.ds.here u.ds.here with
      hash := Wordlist.hash (utf8 (tok.map lowerChar)),
      link := s.wl.buckets (Wordlist.bucketOf (Wordlist.hash (utf8 (tok.map lowerChar)))) } := by
    rw [hlast, b1.wl]; simp [Wordlist.push]
  have hsu : SoundSpace u.ds := by
    have := b1.here; have := b1.start; have := b1.cap; have := hs.vars; have := b1.len
    simp only [DataSpace.here] at *
    refine ⟨by rw [b1.start]; exact hs.pos, by rw [b1.start]; exact hs.aligned, by rw [b1.start, b1.cap]; exact hs.small,
      by omega, b1.len⟩
  have hhu : s.ds.here ≤ u.ds.here := by have := b1.here; omega
  have hgo := hp hsu hhu b1.start b1.cap (toCell (pc s))
  rw [← b5, ← b6, shape_self] at hgo
  have hc : capacity = 64 := rfl
  have hlim : m'.limit = u.ds.limit := by simp only [DataSpace.limit, hms, hmc]
  have hrt : ret (shape u l' (ret u) m') = toCell (pc s) :: ret s := by rw [b6]; exact shape_ret (by simp; omega)
  obtain ⟨v, v1, v2, v3, v4⟩ := definer_ends (t := shape u l' (ret u) m') g b3 hR (by rw [h.does]; exact h.uses "_does" (by simp [doesUses]))
    w3 w4 w5 b4 hgo hw2 (by rw [shape_wl, hlast]; exact Nat.le_refl _) (by rw [shape_ds]; omega)
    ⟨by rw [shape_ds, hms, hmc]; exact hsu.small, by
      rw [shape_ds]; simp only [DataSpace.here, DataSpace.limit] at room hlim; omega⟩ (by rw [shape_ds, hlim]; exact room) hrt
  have hvr : v.refs = s.refs := by
    obtain ⟨_, _, _, _, _, _, _, _, rfl⟩ := v2
    exact b2
  have hvw : v.wl = (doesDone u (afterDoes p w.dfa)).wl := v2.wl
  have hvd : v.ds = m'.emit (toCell (afterDoes p w.dfa)) := v2.ds
  refine ⟨v, v1, by rw [v3, toNat_toCell hpc], ?_, ?_, h.later v4 hvr, ⟨?_, ?_, ?_, v4.start, v4.cap, ?_⟩, ?_, _, hvd⟩
  · rw [show data v = _ from v2.data]
    rw [setRet_data]
    exact shape_data (s := u) (r := ret u) (m := m') hl'
  · rw [show ret v = _ from v2.ret]
    exact ret_setRet (by omega)
  · rw [hvw]; simp [doesDone, hlen]
  · rw [hvw]; simp [doesDone, hlast]
  · intro i hi
    have hne : u.wl.last ≠ i := by omega
    rw [hvw]
    simp only [doesDone]
    rw [List.getElem?_modify]
    simp only [if_neg hne]
    rw [b1.wl]
    simp only [Wordlist.push, List.getElem?_append_left hi]
    cases s.wl.words[i]? <;> rfl
  · intro x hx
    rw [hvd, DataSpace.emit_bytes _ _ (.inl (by omega)), hmb x (by omega), b1.below x hx]
  · obtain ⟨x, k1, k2, k3⟩ := v4.kept _ _ w1
    refine ⟨x, k1, ?_⟩
    rw [k3]
    rw [MadeBy, hvw]
    simp only [doesDone]
    rw [← hlast, List.getElem?_modify, hw2]
    simp [Word.new]

/-- C51. `2constant` takes two numbers and makes a word with them as its data. -/
theorem C51_twoConstant (h : HasDefiners lv lo hi ix s) (hd : data s = y :: x :: l) (hl : l.length + 5 ≤ capacity)
    (hr : (ret s).length + 3 ≤ capacity) (hs : SoundSpace s.ds) (hh : hi ≤ s.ds.here) (hpc : pc s < 2 ^ 64)
    (hn : Naming s tok) (e0 : execWord cfg (n + 1) (ix "2constant") s = .ok ((), s0))
    (e1 : step cfg (n + 1) s0 = .ok (true, u)) (room : u.ds.here + 24 ≤ u.ds.limit) :
    ∃ v, Steps cfg (n + 1) u v ∧ pc v = pc s ∧ data v = l ∧ ret v = ret s ∧ HasDefiners lv lo hi ix v ∧
      OneMore s v ∧ MadeWith v s.wl.words.length u.ds.here (ix "2constant") (code ix ["2,"]) ∧
      v.ds.cellAt u.ds.here = y ∧ v.ds.cellAt (u.ds.here + 8) = x := by
  have B := h.equipped.library
  have g := B.region
  obtain ⟨v, v1, v2, v3, v4, v5, v6, v7, c, v8⟩ := defining h 0 rfl (fun c => rfl) hs hh hpc hn (by omega) e0 e1 (l' := l)
    (m' := (({ u.ds with len := u.ds.len + 16 } : DataSpace).setCell u.ds.here y).setCell (u.ds.here + 8) x)
    (by omega) (fun q1 q2 q3 q4 z => by
      rw [hd]
      have hv := q1.vars
      have hsm := q1.small
      colon call_twoComma B (by simp only [DataSpace.limit]; omega) (by omega) (by simp; omega) q1 (by simp only [DataSpace.here]; omega) (by omega)
        (.inr (by omega))
      exact .skip) rfl rfl (fun q hq => by rw [DataSpace.setCell_bytes_out (by omega), DataSpace.setCell_bytes_out (by omega)])
    (by show _ ≤ u.ds.start + (u.ds.len + 16); simp only [DataSpace.here]; omega)
    (by show u.ds.start + (u.ds.len + 16) + 8 ≤ _; simp only [DataSpace.here] at room; omega)
  have e : DataSpace.here ((({ u.ds with len := u.ds.len + 16 } : DataSpace).setCell u.ds.here y).setCell (u.ds.here + 8) x) =
    u.ds.here + 16 := by show u.ds.start + (u.ds.len + 16) = u.ds.start + u.ds.len + 16; omega
  refine ⟨v, v1, v2, v3, v4, v5, v6, v7, ?_, ?_⟩
  · rw [v8, DataSpace.emit_cell_ne _ _ (by omega), DataSpace.cellAt_setCell_ne (by omega), DataSpace.cellAt_setCell]
  · rw [v8, DataSpace.emit_cell_ne _ _ (by omega), DataSpace.cellAt_setCell]

/-- C51. A word made by `2constant` pushes its two numbers. -/
theorem C51_twoConstant_word (h : HasDefiners lv lo hi ix s)
    (hm : MadeWith s i a (ix "2constant") (code ix ["2,"])) (hl : (data s).length + 2 ≤ capacity)
    (hr : (ret s).length + 2 ≤ capacity) (h1 : s.ds.start < a) (h2 : a + 16 ≤ s.ds.limit) :
    Acts cfg (n + 1) i s (setData s (s.ds.cellAt a :: s.ds.cellAt (a + 8) :: data s)) := by
  have B := h.equipped.library
  have g := B.region
  have := g.small
  obtain ⟨w, w1, hm⟩ := hm
  obtain ⟨w', w1', w2, w3, w4, w5⟩ := h.coded _ (List.mem_of_getElem? (i := 0) rfl)
  dsimp only at w1' w4 w5
  obtain rfl : w' = w := by rw [w1] at w1'; exact (Option.some.inj w1').symm
  rw [← shape_setData]
  refine h.equipped.acts rfl ?_
  have hw3 : lo ≤ afterDoes (code ix ["2,"]) w'.dfa := by simp [afterDoes, code, Part.code, Stmt.all, Stmt.next]; omega
  refine calling_does (q := code ix ["2@"]) g (by rw [shape_self]; exact hm) hw3 w4 ⟨w5.1.2.2.2.2, w5.2⟩ (by omega) (by omega)
    (by simp; omega) fun z => ?_
  have e : (toCell a).toNat = a := toNat_toCell (by simp only [DataSpace.limit] at h2; omega)
  colon call_twoFetch B g.small (by omega) (by len) (by rw [e]; exact h1) (by rw [e]; exact h2)
  exact .last (by rw [e])

/-- C51. `+field` takes an offset and a size, makes a word with the offset as its data and leaves the sum. -/
theorem C51_field (h : HasDefiners lv lo hi ix s) (hd : data s = y :: x :: l) (hl : l.length + 3 ≤ capacity)
    (hr : (ret s).length + 1 ≤ capacity) (hs : SoundSpace s.ds) (hh : hi ≤ s.ds.here) (hpc : pc s < 2 ^ 64)
    (hn : Naming s tok) (e0 : execWord cfg (n + 1) (ix "+field") s = .ok ((), s0))
    (e1 : step cfg (n + 1) s0 = .ok (true, u)) (room : u.ds.here + 16 ≤ u.ds.limit) :
    ∃ v, Steps cfg (n + 1) u v ∧ pc v = pc s ∧ data v = wrap (x.toInt + y.toInt) :: l ∧ ret v = ret s ∧ HasDefiners lv lo hi ix v ∧
      OneMore s v ∧ MadeWith v s.wl.words.length u.ds.here (ix "+field") (code ix ["over", ",", "+"]) ∧
      v.ds.cellAt u.ds.here = x := by
  have B := h.equipped.library
  have g := B.region
  obtain ⟨v, v1, v2, v3, v4, v5, v6, v7, c, v8⟩ := defining h 1 rfl (fun c => rfl) hs hh hpc hn (by omega) e0 e1
    (l' := wrap (x.toInt + y.toInt) :: l) (m' := u.ds.emit x) (by simp; omega) (fun q1 q2 q3 q4 z => by
      rw [hd]
      calls doing_effect 4 rfl (h.uses "over" (by simp [doesUses])) rfl (by len) (by len) (by len)
      calls doing_comma (h.uses _ (by simp [doesUses])) (by len) (by len) q1 (by omega) (by omega)
      calls doing_effect 18 rfl (h.uses "+" (by simp [doesUses])) rfl (by len) (by len) (by len)
      exact .skip) rfl rfl (fun q hq => DataSpace.emit_bytes _ _ (.inl hq)) (by simp) (by simp; omega)
  refine ⟨v, v1, v2, v3, v4, v5, v6, v7, ?_⟩
  rw [v8, DataSpace.emit_cell_ne _ _ (by simp), DataSpace.emit_cell]

/-- C51. A word made by `+field` adds its offset to the address on the stack. -/
theorem C51_field_word (h : HasDefiners lv lo hi ix s)
    (hm : MadeWith s i a (ix "+field") (code ix ["over", ",", "+"])) (hd : data s = x :: l) (hl : l.length + 2 ≤ capacity)
    (hr : (ret s).length + 1 ≤ capacity) (h1 : s.ds.start < a) (h2 : a + 8 ≤ s.ds.limit) :
    Acts cfg (n + 1) i s (setData s (wrap (x.toInt + (s.ds.cellAt a).toInt) :: l)) := by
  have B := h.equipped.library
  have g := B.region
  have := g.small
  obtain ⟨w, w1, hm⟩ := hm
  obtain ⟨w', w1', w2, w3, w4, w5⟩ := h.coded _ (List.mem_of_getElem? (i := 1) rfl)
  dsimp only at w1' w4 w5
  obtain rfl : w' = w := by rw [w1] at w1'; exact (Option.some.inj w1').symm
  rw [← shape_setData]
  refine h.equipped.acts hd ?_
  have hw3 : lo ≤ afterDoes (code ix ["over", ",", "+"]) w'.dfa := by
    simp [afterDoes, code, Part.code, Stmt.all, Stmt.next]; omega
  refine calling_does (q := code ix ["@", "+"]) g (by rw [← hd, shape_self]; exact hm) hw3 w4 ⟨w5.1.2.2.2.2, w5.2⟩ (by len) (by omega)
    (by simp; omega) fun z => ?_
  have e : (toCell a).toNat = a := toNat_toCell (by simp only [DataSpace.limit] at h2; omega)
  calls doing_fetch g (h.uses _ (by simp [doesUses])) (by len) (by len) (by rw [e]; exact h1) (by rw [e]; exact h2)
  calls doing_effect 18 rfl (h.uses "+" (by simp [doesUses])) rfl (by len) (by len) (by len)
  exact .last (by rw [e])

/-- C51. `defer` makes a word whose data say `noop`. -/
theorem C51_defer (h : HasDefiners lv lo hi ix s) (hl : (data s).length + 1 ≤ capacity)
    (hr : (ret s).length + 1 ≤ capacity) (hs : SoundSpace s.ds) (hh : hi ≤ s.ds.here) (hpc : pc s < 2 ^ 64)
    (hn : Naming s tok) (e0 : execWord cfg (n + 1) (ix "defer") s = .ok ((), s0))
    (e1 : step cfg (n + 1) s0 = .ok (true, u)) (room : u.ds.here + 16 ≤ u.ds.limit) :
    ∃ v, Steps cfg (n + 1) u v ∧ pc v = pc s ∧ data v = data s ∧ ret v = ret s ∧ HasDefiners lv lo hi ix v ∧
      OneMore s v ∧ MadeWith v s.wl.words.length u.ds.here (ix "defer") (code ix [.num (BitVec.ofNat 64 (ix "noop")), ","]) ∧
      v.ds.cellAt u.ds.here = BitVec.ofNat 64 (ix "noop") := by
  have B := h.equipped.library
  have g := B.region
  obtain ⟨v, v1, v2, v3, v4, v5, v6, v7, c, v8⟩ := defining h 2 rfl (fun c => rfl) hs hh hpc hn (by omega) e0 e1
    (l' := data s) (m' := u.ds.emit (BitVec.ofNat 64 (ix "noop"))) (by omega) (fun q1 q2 q3 q4 z => by
      number
      calls doing_comma (h.uses _ (by simp [doesUses])) (by len) (by len) q1 (by omega) (by omega)
      exact .skip) rfl rfl (fun q hq => DataSpace.emit_bytes _ _ (.inl hq)) (by simp) (by simp; omega)
  refine ⟨v, v1, v2, v3, v4, v5, v6, v7, ?_⟩
  rw [v8, DataSpace.emit_cell_ne _ _ (by simp), DataSpace.emit_cell]

/-- C51. A word made by `defer` does what the word does that its data say. -/
theorem C51_defer_word (h : HasDefiners lv lo hi ix s)
    (hm : MadeWith s i a (ix "defer") (code ix [.num (BitVec.ofNat 64 (ix "noop")), ","])) (hl : (data s).length + 1 ≤ capacity)
    (hr : (ret s).length + 1 ≤ capacity) (h1 : s.ds.start < a) (h2 : a + 8 ≤ s.ds.limit) {w : Word}
    (hw : s.wl.words[(s.ds.cellAt a).toNat]? = some w) (hc : w.action ∈ calledActions) {l' : List Cell} {m' : DataSpace}
    (hl' : l'.length ≤ capacity)
    (hb : ∀ z, Acts cfg (n + 2) (s.ds.cellAt a).toNat (setRet s (z :: ret s)) (setRet (leaving t l' m') (z :: ret s)) ∧
      Loaded s.refs lv s.wl lo hi s.cur s.ds (leaving t l' m')) :
    Acts cfg (n + 2) i s (setRet (leaving t l' m') (ret s)) := by
  have B := h.equipped.library
  have g := B.region
  have := g.small
  obtain ⟨w0, w1, hm⟩ := hm
  obtain ⟨w', w1', w2, w3, w4, w5⟩ := h.coded _ (List.mem_of_getElem? (i := 2) rfl)
  dsimp only at w1' w4 w5
  obtain rfl : w' = w0 := by rw [w1] at w1'; exact (Option.some.inj w1').symm
  have e1 : ∀ r, setRet (leaving t l' m') r = shape t l' r m' := by
    intro r; rfl
  have e2 : ∀ r, setRet s r = shape s (data s) r s.ds := by
    intro r; rw [shape, setData_self]; rfl
  rw [e1]
  refine h.equipped.acts rfl ?_
  have hw3 : lo ≤ afterDoes (code ix [.num (BitVec.ofNat 64 (ix "noop")), ","]) w'.dfa := by
    simp [afterDoes, code, Part.code, Stmt.all, Stmt.next]; omega
  refine calling_does (q := code ix ["@", "execute"]) g (by rw [shape_self]; exact hm) hw3 w4 ⟨w5.1.2.2.2.2, w5.2⟩ (by omega) (by omega)
    (by omega) fun z => ?_
  have e : (toCell a).toNat = a := toNat_toCell (by simp only [DataSpace.limit] at h2; omega)
  calls doing_fetch g (h.uses _ (by simp [doesUses])) (by len) (by len) (by rw [e]; exact h1) (by rw [e]; exact h2)
  rw [e]
  colon calling_execute (h.uses _ (by simp [doesUses])) hw hc (by omega) (by len) (fun hL => by
    have := hb z
    rw [e1, e2] at this
    exact ⟨this.1, this.2.congr rfl rfl rfl⟩)
  exact .skip

end

/-- The machine with core.fth up to the definition of `src-stack`, which is the newest word, about to run the code of
`defer`. There is no text to read. -/
def deferring : VM :=
  { image with wl := { image.wl with words := image.wl.words.take (imageIx "src-stack" + 1), last := imageIx "src-stack" } }.at 7976 0

/-- The machine a few steps later. -/
def afterSteps (cfg : Cfg) (n : Nat) : Nat → VM → Except Fault VM
  | 0, s => .ok s
  | j + 1, s => match step cfg n s with
    | .ok (true, t) => afterSteps cfg n j t
    | .ok (false, _) => .error .panic
    | .error e => .error e

theorem afterSteps_steps {cfg : Cfg} {n j : Nat} : ∀ {s t : VM}, afterSteps cfg n j s = .ok t → Steps cfg n s t := by
  induction j with
  | zero => intro s t h; cases h; exact .refl _
  | succ j ih =>
    intro s t h
    rw [afterSteps] at h
    split at h
    · rename_i u hu
      exact (Steps.one hu).trans (ih h)
    · cases h
    · cases h

def spoilt : Bool := match afterSteps demoCfg 3 4 deferring with
  | .ok t => (match t.wl.words[imageIx "src-stack"]? with
    | some w => decide (w.action = .core .doesAction) && decide (t.wl.words.length = deferring.wl.words.length)
    | none => false)
  | .error _ => false

set_option maxRecDepth 100000 in
theorem spoilt_true : spoilt = true := by decide +kernel

set_option maxRecDepth 100000 in
theorem deferring_created : (match deferring.wl.words[imageIx "src-stack"]? with
    | some w => decide (w.action = .core .pVar) && decide (w.dfa = 10264)
    | none => false) = true := by decide +kernel

set_option maxRecDepth 100000 in
theorem deferring_code : (match deferring.wl.words[imageIx "defer"]? with
    | some w => decide (w.action = .core .nest) && decide (w.dfa = pc deferring)
    | none => false) = true := by decide +kernel

set_option maxRecDepth 100000 in
theorem deferring_input : deferring.task.inbuf = some [] ∧ deferring.task.st.sourceId = 0 := by decide +kernel

/-- C51, the negative part. `defer` (and every other defining word) with no name after it makes no word. But it turns
the newest word, which the program had made with `create` before, into one that does what the code after `does>` says. -/
theorem C51_refuted : ∃ (cfg : Cfg) (n : Nat) (s t : VM) (a : Nat), (∀ tok, ¬ Naming s tok) ∧
    (∃ w, s.wl.words[imageIx "defer"]? = some w ∧ w.action = .core .nest ∧ pc s = w.dfa) ∧
    Created s s.wl.last a ∧ Steps cfg n s t ∧ t.wl.words.length = s.wl.words.length ∧ ¬ Created t s.wl.last a := by
  have h1 := spoilt_true
  have h2 := deferring_created
  have h3 := deferring_input
  unfold spoilt at h1
  split at h1
  · rename_i t ht
    split at h1
    · rename_i w hw
      simp only [Bool.and_eq_true, decide_eq_true_eq] at h1
      refine ⟨demoCfg, 3, deferring, t, 10264, ?_, ?_, ?_, afterSteps_steps ht, h1.2, ?_⟩
      · rintro tok ⟨pre, rest, old, toks, k1, -, k3⟩
        have k4 := k1.buffer
        rw [inputBuffer, h3.2, if_neg (by decide), h3.1] at k4
        have k5 := congrArg (Except.toOption) k4
        simp only [Except.toOption, Option.some.injEq] at k5
        have k6 : rest = [] := (List.append_eq_nil_iff.mp k5.symm).2
        subst k6
        obtain ⟨ts, hts⟩ : ∃ ts, ts = tok :: toks := ⟨_, rfl⟩
        rw [← hts] at k3
        generalize hr : ([] : List Char) = r at k3
        cases k3 with
        | blank => cases hts
        | word b1 b2 b3 b4 b5 =>
          have := List.append_eq_nil_iff.mp hr.symm
          exact b2 (List.append_eq_nil_iff.mp this.2).1
      · have h4 := deferring_code
        split at h4
        · rename_i v hv
          simp only [Bool.and_eq_true, decide_eq_true_eq] at h4
          exact ⟨v, hv, h4.1, h4.2.symm⟩
        · cases h4
      · split at h2
        · rename_i v hv
          simp only [Bool.and_eq_true, decide_eq_true_eq] at h2
          exact ⟨v, hv, h2⟩
        · cases h2
      · rintro ⟨v, v1, v2, -⟩
        have : v = w := by rw [show deferring.wl.last = imageIx "src-stack" from rfl, hw] at v1; exact (Option.some.inj v1).symm
        rw [this, h1.1] at v2
        cases v2
    · cases h1
  · cases h1

/-- The machine with core.fth, with ` x` to read and `l` on the stack. -/
def reader (l : List Cell) : VM :=
  setData { image with tasks := fun i => if i = image.cur then { image.tasks i with inbuf := some [' ', 'x'] } else image.tasks i } l

def definersB (s : VM) : Bool :=
  runtimeB s.refs (imageIx "leave") s.wl && usesB s.wl imageIx libraryUses && usesB s.wl imageIx doesUses &&
  codedB s.refs (imageIx "leave") s.wl 5184 8056 s.ds imageIx (library imageIx) &&
  codedB s.refs (imageIx "leave") s.wl 5184 8056 s.ds imageIx (definers s.refs imageIx) &&
  decide (s.refs.doesRt = imageIx "_does") && decide (s.ds.start = 1024) && decide (s.ds.cap = 65536)

theorem definers_of {s : VM} (h : definersB s = true) : HasDefiners (imageIx "leave") 5184 8056 imageIx s := by
  simp only [definersB, Bool.and_eq_true, decide_eq_true_eq] at h
  obtain ⟨⟨⟨⟨⟨⟨⟨h1, h2⟩, h3⟩, h4⟩, h5⟩, h6⟩, h7⟩, h8⟩ := h
  exact ⟨⟨runtimeB_runtime h1, ⟨by omega, by omega, by omega⟩, usesB_uses h2, codedB_coded h4⟩, usesB_uses h3, h6, codedB_coded h5⟩

set_option maxRecDepth 100000 in
theorem image_definersB : definersB image = true := by decide +kernel

theorem reader_definers (l : List Cell) : HasDefiners (imageIx "leave") 5184 8056 imageIx (reader l) :=
  definers_of image_definersB

theorem reader_naming (l : List Cell) : Naming (reader l) ['x'] := by
  have e : (reader l).task.inbuf = some [' ', 'x'] ∧ (reader l).task.st.sourceId = 0 ∧ (reader l).task.st.sourceIndex = 0 := by
    unfold reader setData
    rw [VM.task_setTask]
    exact ⟨rfl, rfl, rfl⟩
  refine ⟨[], [' ', 'x'], [], [], ⟨?_, ?_, by decide⟩, rfl, ?_⟩
  · rw [inputBuffer, e.2.1, if_neg (by decide), e.1]; rfl
  · exact e.2.2
  · exact .word (bs := [' ']) (t := ['x']) (rest := []) (by decide) (by simp) (by decide) (by intro _ _ h; cases h) (.blank (by simp))

def definedOk (name : String) (s : VM) : Bool :=
  match execWord demoCfg 3 (imageIx name) s with
  | .ok ((), s0) => match step demoCfg 3 s0 with
    | .ok (true, u) => decide (u.ds.here + 24 ≤ u.ds.limit) && decide (1024 < u.ds.here) && decide (u.ds.limit = s.ds.limit)
    | _ => false
  | .error _ => false

theorem definedOk_runs {name : String} {s : VM} (h : definedOk name s = true) :
    ∃ s0 u, execWord demoCfg 3 (imageIx name) s = .ok ((), s0) ∧ step demoCfg 3 s0 = .ok (true, u) ∧
      u.ds.here + 24 ≤ u.ds.limit ∧ 1024 < u.ds.here ∧ u.ds.limit = s.ds.limit := by
  unfold definedOk at h
  split at h
  · rename_i s0 h0
    split at h
    · rename_i u hu
      simp only [Bool.and_eq_true, decide_eq_true_eq] at h
      exact ⟨s0, u, h0, hu, h.1.1, h.1.2, h.2⟩
    · cases h
  · cases h

theorem reader_sound (l : List Cell) : SoundSpace (reader l).ds ∧ 8056 ≤ (reader l).ds.here ∧ pc (reader l) < 2 ^ 64 ∧
    ret (reader l) = [] := by
  have hr : ret image = [] := by decide +kernel
  refine ⟨⟨?_, ?_, ?_, ?_, ?_⟩, ?_, ?_, ?_⟩
  · show 0 < image.ds.start; decide
  · show image.ds.start % 16 = 0; decide
  · show image.ds.start + image.ds.cap < 2 ^ 63; decide
  · show 16 ≤ image.ds.len; decide
  · show image.ds.len ≤ image.ds.cap; decide
  · show 8056 ≤ image.ds.here; decide
  · rw [pc, reader, setData, VM.task_setTask]; exact Nat.zero_lt_succ _
  · rw [reader, setData_ret]; exact hr

set_option maxRecDepth 100000 in
/-- Non-vacuity of C51_twoConstant and C51_twoConstant_word: `1 2 2constant x`, and then `x`. -/
example : ∃ v, OneMore (reader [2, 1]) v ∧ data v = [] ∧
    Acts demoCfg 3 (reader [2, 1]).wl.words.length v (setData v [2, 1]) := by
  have hok : definedOk "2constant" (reader [2, 1]) = true := by decide +kernel
  obtain ⟨s0, u, e0, e1, e2, e3, e4⟩ := definedOk_runs hok
  obtain ⟨k1, k2, k3, k4⟩ := reader_sound [2, 1]
  obtain ⟨v, v1, v2, v3, v4, v5, v6, v7, v8, v9⟩ := C51_twoConstant (n := 2) (reader_definers [2, 1]) (data_setData (by decide)) (by decide)
    (by rw [k4]; decide) k1 k2 k3 (reader_naming _) e0 e1 e2
  refine ⟨v, v6, v3, ?_⟩
  have := C51_twoConstant_word (cfg := demoCfg) (n := 2) v5 v7 (by rw [v3]; decide) (by rw [v4, k4]; decide)
    (by rw [v6.start]; exact e3) (by rw [DataSpace.limit, v6.start, v6.cap]; simp only [DataSpace.limit] at e2 e4; omega)
  rw [v8, v9, v3] at this
  exact this

set_option maxRecDepth 100000 in
/-- Non-vacuity of C51_field and C51_field_word: `4 8 +field x`, and then `x` at 100. -/
example : ∃ v, OneMore (reader [8, 4]) v ∧ data v = [12] ∧
    Acts demoCfg 3 (reader [8, 4]).wl.words.length (setData v [100]) (setData (setData v [100]) [104]) := by
  have hok : definedOk "+field" (reader [8, 4]) = true := by decide +kernel
  obtain ⟨s0, u, e0, e1, e2, e3, e4⟩ := definedOk_runs hok
  obtain ⟨k1, k2, k3, k4⟩ := reader_sound [8, 4]
  obtain ⟨v, v1, v2, v3, v4, v5, v6, v7, v8⟩ := C51_field (n := 2) (reader_definers [8, 4]) (data_setData (by decide)) (by decide)
    (by rw [k4]; decide) k1 k2 k3 (reader_naming _) e0 e1 (by omega)
  refine ⟨v, v6, v3, ?_⟩
  have := C51_field_word (cfg := demoCfg) (n := 2) (s := setData v [100])
    (v5.later (k := v.cur) (v5.equipped.loaded.congr rfl rfl rfl) rfl) v7 (data_setData (by decide)) (by decide) (by rw [setData_ret, v4, k4]; decide)
    (by show v.ds.start < _; rw [v6.start]; exact e3)
    (by show _ ≤ v.ds.limit; rw [DataSpace.limit, v6.start, v6.cap]; simp only [DataSpace.limit] at e2 e4; omega)
  rw [show (setData v [100]).ds.cellAt u.ds.here = 4 from v8] at this
  exact this

set_option maxRecDepth 100000 in
/-- Non-vacuity of C51_defer and C51_defer_word: `defer x`, and then `x`. -/
example : ∃ v, OneMore (reader []) v ∧ data v = [] ∧ Acts demoCfg 3 (reader []).wl.words.length v v := by
  have hok : definedOk "defer" (reader []) = true := by decide +kernel
  obtain ⟨s0, u, e0, e1, e2, e3, e4⟩ := definedOk_runs hok
  obtain ⟨k1, k2, k3, k4⟩ := reader_sound []
  have hd : data (reader []) = [] := data_setData (by decide)
  obtain ⟨v, v1, v2, v3, v4, v5, v6, v7, v8⟩ := C51_defer (n := 2) (reader_definers []) (by rw [hd]; decide)
    (by rw [k4]; decide) k1 k2 k3 (reader_naming _) e0 e1 (by omega)
  refine ⟨v, v6, v3.trans hd, ?_⟩
  have e8 : (v.ds.cellAt u.ds.here).toNat = imageIx "noop" := by rw [v8]; decide
  have hb := v5.uses "noop" (by simp [doesUses])
  obtain ⟨w, w1, w2⟩ := hb
  have e5 : setRet (leaving v (data v) v.ds) (ret v) = v := by
    rw [leaving, setData_self]; exact setRet_self v
  have hv : data v = [] := v3.trans hd
  have := C51_defer_word (cfg := demoCfg) (n := 1) (t := v) (l' := data v) (m' := v.ds) v5 v7 (by rw [hv]; decide) (by rw [v4, k4]; decide)
    (by rw [v6.start]; exact e3) (by rw [DataSpace.limit, v6.start, v6.cap]; simp only [DataSpace.limit] at e2 e4; omega)
    (by rw [e8]; exact w1) (by rw [prim_inj w2 (p := .core .noop) rfl]; simp [calledActions]) (by rw [hv]; decide) (fun z => by
      have hl : Loaded v.refs (imageIx "leave") v.wl 5184 8056 v.cur v.ds (leaving v (data v) v.ds) := by
        rw [leaving, setData_self]; exact v5.equipped.loaded
      refine ⟨?_, hl⟩
      rw [e8]
      have hdo := doing_effect (cfg := demoCfg) (n := 2) (s := v) (m := v.ds) (r := z :: ret v) (R := v.refs) (lv := imageIx "leave") (wl := v.wl)
        (lo := 5184) (hi := 8056) (k := v.cur) (d := v.ds) (l := data v) 0 rfl (v5.uses "noop" (by simp [doesUses])) rfl (by rw [hv]; decide)
        (by rw [hv]; decide) (by rw [List.length_cons, v4, k4]; decide)
      have := (hdo.calling rfl (v5.equipped.loaded.congr rfl rfl rfl)).1
      have e9 : shape v (data v) (z :: ret v) v.ds = setRet v (z :: ret v) := by rw [shape, setData_self]; rfl
      rw [e9] at this
      rw [leaving, setData_self]
      exact this)
  rw [e5] at this
  exact this

/-- Non-vacuity of C51_created. -/
example (cfg : Cfg) (n : Nat) : Acts cfg (n + 1) (imageIx "src-stack") deferring
      (setData deferring (toCell 10264 :: data deferring)) := by
  have h2 := deferring_created
  split at h2
  · rename_i v hv
    simp only [Bool.and_eq_true, decide_eq_true_eq] at h2
    refine C51_created ⟨v, hv, h2⟩ ?_
    have : (data deferring).length = 0 := by decide +kernel
    rw [this]; decide
  · cases h2

/-- A machine with two variables. -/
def variables : VM := after (addTable (ctx demoCfg 2) (demoTable ++ [⟨"x", .core .pVar, false, false⟩, ⟨"y", .core .pVar, false, false⟩]))
  (VM.blank 1024 8192)

/-- Non-vacuity of C51_kept. -/
example (P : Prim → Prop) : Dict variables ∧ InSpace variables ∧ Orderly demoCfg 7 P variables variables ∧ ∃ a, Created variables 6 a := by
  have h0 : succeeds (addTable (ctx demoCfg 2) (demoTable ++ [⟨"x", .core .pVar, false, false⟩, ⟨"y", .core .pVar, false, false⟩]))
    (VM.blank 1024 8192) = true := by decide +kernel
  obtain ⟨d, i⟩ := C20_table (VM.blank_dict 1024 8192) ⟨by decide, by decide⟩
    (noUnmark_spec (by decide)) (succeeds_spec h0)
  have h1 : (match variables.wl.words[6]? with
    | some w => decide (w.action = .core .pVar)
    | none => false) = true := by decide +kernel
  have h2 : 7 < variables.wl.words.length := by decide +kernel
  refine ⟨d, i, .refl _ h2, ?_⟩
  split at h1
  · rename_i w hw
    exact ⟨_, w, hw, by simpa using h1, rfl⟩
  · cases h1

theorem setRet_alike (s : VM) {l l' : List Cell} (hl : l.length ≤ capacity) (hl' : l'.length ≤ capacity) :
    Alike (setRet (setRet s l) l') (setRet s l') := by
  have hc : capacity = 64 := rfl
  refine ⟨holding s.task.s (data s), holding (holding s.task.r l) l', s.task.f, ?_, ?_, ?_, ?_⟩
  · rw [setRet, VM.task_setTask, data, holding_self]; exact .refl _
  · rw [setRet, VM.task_setTask]; exact LikeStack.holding2 _ hl (by omega)
  · rw [setRet, VM.task_setTask]; exact .refl _
  · simp only [setRet, VM.task_setTask, VM.setTask_setTask, data, holding_self]

/-- A machine with a word made by a defining word with nothing after `does>`. -/
def idle : VM := { image with wl := { image.wl with
  words := image.wl.words ++ [{ Word.new (.core .doesAction) .word 0 20000 with doer := 7664 }] } }

set_option maxRecDepth 100000 in
/-- Non-vacuity of C51_runs: it pushes the address of its data. -/
example (cfg : Cfg) (n : Nat) : Acts cfg (n + 1) image.wl.words.length idle (setData idle [toCell 20000]) := by
  have hd : data idle = [] := by decide +kernel
  have hr : ret idle = [] := by decide +kernel
  have hw : runtimeB idle.refs (imageIx "leave") idle.wl = true := by decide +kernel
  have hc : CellIs idle.ds 7664 idle.refs.exit := by unfold CellIs; decide +kernel
  refine C51_runs (R := idle.refs) (lv := imageIx "leave") (wl := idle.wl) (lo := 7664) (hi := 7672) (k := idle.cur) (d := idle.ds)
    (W := fun _ _ _ => False) (q := .exit) (a := 20000) (p := 7664)
    ⟨show 1024 ≤ 7664 by decide, show 7672 ≤ 1024 + 65536 by decide, show 1024 + 65536 < 2 ^ 63 by decide⟩ (fun _ _ _ _ h => h.elim)
    ⟨{ Word.new (.core .doesAction) .word 0 20000 with doer := 7664 }, List.getElem?_concat_length, rfl, rfl, rfl⟩
    (by decide) (by decide) hc ⟨rfl, rfl, rfl, fun _ _ _ => rfl, runtimeB_runtime hw,
      fun _ w hw => ⟨w, hw, rfl, rfl⟩⟩ (by rw [hd]; decide) (by rw [hr]; decide) fun x => ?_
  refine ⟨_, [], .exit, ?_, ?_⟩
  · rw [hr]; exact ret_setRet (by simp)
  · rw [hd, hr]
    have e : setRet (setData idle [toCell 20000]) [] = setData idle [toCell 20000] := by
      have h := setRet_self (setData idle [toCell 20000])
      rwa [setData_ret, hr] at h
    have h := setRet_alike (setData idle [toCell 20000]) (l := [x]) (l' := []) (by simp [capacity]) (by decide)
    rw [e] at h
    exact h.symm

end Verif
