import Verif.Lemmas.Dictionary
import Verif.Lemmas.Reach

/-!
# What defining words do to the dictionary
-/

namespace Verif
open Spec

theorem Spec.Edit.mono {b b' : Flags} {s t : VM} (hb : ∀ x y, b.ok x y → b'.ok x y)
    (hw : b'.writes = false → b.writes = false) (e : Edit b s t) :
    Edit b' s t := by
  cases e with
  | keep start intact last buckets words code =>
    exact .keep start intact last buckets (words.mono hb) fun e => code (hw e)
  | add name w start wl below nfa dfa named here shown mark =>
    exact .add name w start wl below nfa dfa named here (hb _ _ shown) mark
  | forget k w start bytes marker action words last buckets here =>
    exact .forget k w start bytes marker action words last buckets here

theorem Spec.Edit.dict {b : Flags} {s t : VM} (h : Dict s) (e : Edit b s t) : Dict t := by
  cases e with
  | keep start intact last buckets words => exact h.frame intact start last buckets (words.mono fun _ _ _ => trivial)
  | add name w start wl below nfa dfa named here shown mark =>
    exact h.push wl start below (by omega) dfa named here mark
  | forget k w start bytes marker action words last buckets here =>
    obtain ⟨h1, -, -⟩ := h.marks k w marker action
    have hk := (List.getElem?_eq_some_iff.1 marker).1
    refine h.take (k := k) (by omega) words (by omega) buckets start bytes fun i v hi hv => ?_
    rw [here]
    exact h.apart i k v w hi hv marker

/-! ## Compiling a name -/

theorem compileBytes_spec {oc : Bool} : ∀ (bs : List Byte) {d d' : DataSpace},
    d.start + d.cap < 2 ^ 63 → d.len ≤ d.cap → d.compileBytes oc bs = .ok d' →
    d.len + bs.length ≤ d.cap ∧ d' = { d with bytes := d'.bytes, len := d.len + bs.length } ∧
    (∀ (i : Nat) x, bs[i]? = some x → d'.bytes (d.here + i) = x) ∧
    ∀ x, x < d.here → d'.bytes x = d.bytes x := by
  intro bs
  induction bs with
  | nil =>
    intro d d' _ hl h
    cases h
    exact ⟨hl, rfl, fun i x hx => (by rw [List.getElem?_nil] at hx; cases hx), fun _ _ => rfl⟩
  | cons b bs ih =>
    intro d d' hd hl h
    simp only [DataSpace.compileBytes] at h
    obtain ⟨d1, h1, h2⟩ := Except.bind_ok' h
    obtain ⟨h3, rfl⟩ := compileU8_appends hd h1
    obtain ⟨i1, i2, i3, i4⟩ := ih (by simpa using hd) (by simpa using h3) h2
    simp only [DataSpace.here, DataSpace.setByte] at i1 i2 i3 i4 ⊢
    refine ⟨by simp only [List.length_cons]; omega, ?_, fun i x hx => ?_, fun x hx => ?_⟩
    · rw [i2]
      simp only [List.length_cons, DataSpace.mk.injEq, true_and]
      omega
    · cases i with
      | zero =>
        cases hx
        rw [i4 _ (by omega)]
        exact if_pos rfl
      | succ i =>
        rw [← i3 i x hx]
        congr 1
        omega
    · rw [i4 x (by omega)]
      exact if_neg (by omega)

theorem compileStr_spec {oc : Bool} {bs : List Byte} {d d' : DataSpace} {a : Nat}
    (hd : d.start + d.cap < 2 ^ 63) (h : d.compileStr oc bs = .ok (a, d')) :
    a = d.here ∧ d'.start = d.start ∧ d'.cap = d.cap ∧ d'.len = d.len + 8 + bs.length ∧
    d'.len ≤ d'.cap ∧ d'.cellAt a = toCell bs.length ∧ d'.bytesAt (a + 8) bs.length = bs ∧
    ∀ x, x < d.here → d'.bytes x = d.bytes x := by
  unfold DataSpace.compileStr at h
  split at h
  case isFalse => cases h
  obtain ⟨d1, h1, h2⟩ := Except.bind_ok' h
  obtain ⟨d2, h3, h4⟩ := Except.bind_ok' h2
  cases h4
  obtain ⟨h5, rfl⟩ := compileCell_appends hd h1
  obtain ⟨i1, i2, i3, i4⟩ := compileBytes_spec bs (d := { d.setCell d.here (toCell bs.length) with len := d.len + 8 })
    hd h5 h3
  simp only [DataSpace.setCell_cap] at i1
  have hc := cellAt_same (d := d.setCell d.here (toCell bs.length)) (d' := d') (a := d.here) fun x h1 h2 => by
    rw [i4 x (by simp only [DataSpace.here] at h2 ⊢; simp only [DataSpace.setCell_start]; omega)]
  refine ⟨rfl, by rw [i2]; rfl, by rw [i2]; rfl, by rw [i2], by rw [i2]; exact i1, ?_, ?_, fun x hx => ?_⟩
  · rw [hc]; exact DataSpace.cellAt_setCell d _ _
  · apply List.ext_getElem?
    intro i
    rw [DataSpace.bytesAt, List.getElem?_map]
    by_cases hi : i < bs.length
    · rw [List.getElem?_range hi, Option.map_some]
      have hx := List.getElem?_eq_getElem hi
      rw [hx, ← i3 i _ hx]
      congr 2
    · rw [List.getElem?_eq_none (by simp; omega), List.getElem?_eq_none (by omega)]
      rfl
  · rw [i4 x (by simp only [DataSpace.here] at hx ⊢; simp only [DataSpace.setCell_start]; omega)]
    exact DataSpace.setCell_bytes_out (.inl hx)

/-! ## `define` -/

theorem plain_free : ∀ k, k ∈ plainKinds → k ∈ freeKinds := by decide

theorem plain_abort : ∀ k, k ∈ abortKinds → k ∈ plainKinds := by decide

/-- Free changes keep the dictionary. -/
theorem Spec.Edit.free {b : Flags} {K : List Kind} (hK : ∀ k, k ∈ K → k ∈ freeKinds) {s t : VM} (h : Dict s)
    (hc : Changes K s t) : Edit b s t := by
  obtain ⟨h1, h2, h3, h4, h5, h6⟩ := hc.free hK
  exact .keep h6 (h.intact h4 h5) h1 h2 (h3.mono (fun _ _ => b.ofSame)) fun _ => ⟨h4, h5⟩

theorem Spec.Changes.pre {s t : VM} (h : Changes [.token, .sourceIndex, .output] s t) :
    t.wl = s.wl ∧ t.ds = s.ds ∧ t.lastError = s.lastError ∧ t.handler = s.handler := by
  induction h with
  | refl => exact ⟨rfl, rfl, rfl, rfl⟩
  | @tail u v k _ hk hc ih =>
    have : v.wl = u.wl ∧ v.ds = u.ds ∧ v.lastError = u.lastError ∧ v.handler = u.handler := by
      simp only [List.mem_cons, List.not_mem_nil, or_false] at hk
      rcases hk with rfl | rfl | rfl
      · obtain ⟨_, rfl⟩ := hc; exact ⟨rfl, rfl, rfl, rfl⟩
      · obtain ⟨_, rfl⟩ := hc; exact ⟨rfl, rfl, rfl, rfl⟩
      · obtain ⟨_, -, rfl⟩ := hc; exact ⟨rfl, rfl, rfl, rfl⟩
    exact ⟨this.1.trans ih.1, this.2.1.trans ih.2.1, this.2.2.1.trans ih.2.2.1, this.2.2.2.trans ih.2.2.2⟩

/-- The state after a word called `name` was added. -/
structure Added (p : Prim) (name : List Byte) (s t : VM) : Prop where
  start : t.ds.start = s.ds.start
  cap : t.ds.cap = s.ds.cap
  len : t.ds.len ≤ t.ds.cap
  wl : t.wl = s.wl.push name (Word.new p .word s.ds.here t.ds.here)
  below : ∀ x, x < s.ds.here → t.ds.bytes x = s.ds.bytes x
  here : s.ds.here + 8 + name.length ≤ t.ds.here
  count : t.ds.cellAt s.ds.here = toCell name.length
  text : t.ds.bytesAt (s.ds.here + 8) name.length = name
  error : t.lastError = s.lastError

theorem add_inv {c : Ctx} {p : Prim} {name : List Byte} {s s' : VM} {u : Unit} (hi : InSpace s)
    (h : (do
      let nfa ← compileStrM c name
      dsOp fun d => d.align c.oc
      let dfa ← getHere
      wlPush name (Word.new p .word nfa dfa)) s = .ok (u, s')) : Added p name s s' := by
  obtain ⟨a, s1, h1, h⟩ := M.bind_inv h
  simp only [compileStrM] at h1
  cases hd : s.ds.compileStr c.oc name with
  | error e => rw [hd] at h1; cases h1
  | ok r =>
    obtain ⟨a', d⟩ := r
    rw [hd] at h1
    cases h1
    obtain ⟨rfl, c2, c3, c4, c5, c6, c7, c8⟩ := compileStr_spec hi.1 hd
    obtain ⟨_, s2, h2, h⟩ := M.bind_inv h
    rw [dsOp_apply] at h2
    cases ha : d.align c.oc with
    | error e => simp only [ha] at h2; cases h2
    | ok d2 =>
      simp only [ha] at h2
      cases h2
      cases h
      obtain ⟨n, b, a1, a2, a3, rfl⟩ := align_appends (by rw [c2, c3]; exact hi.1) c5 ha
      have hb : ∀ x, x < s.ds.here + 8 + name.length → b x = d.bytes x := fun x hx =>
        a3 x (.inl (by simp only [DataSpace.here] at hx; omega))
      have hlen : s.ds.here + 8 + name.length ≤ d.start + n := by simp only [DataSpace.here]; omega
      exact {
        start := c2, cap := c3, len := a2, wl := rfl, error := rfl
        below := fun x hx => (hb x (by omega)).trans (c8 x hx)
        here := hlen
        count := by
          rw [← c6]
          exact cellAt_same fun x h1 h2 => hb x (by omega)
        text := by
          refine Eq.trans ?_ c7
          exact bytesAt_congr fun x h1 h2 => hb x (by omega) }

/-- `define` either fails, changing no word and nothing below `here`, or adds a word. -/
theorem define_full {c : Ctx} {p : Prim} {A : Inv plainKinds} (hh : Does A (runHandler c)) {s s' : VM}
    {u : Unit} (hf : Fit A s) (h : define c p s = .ok (u, s')) :
    (Changes plainKinds s s' ∧ ∃ y, Changes plainKinds s y ∧ abortWith c .unexpectedEOF y = .ok (u, s')) ∨
    ∃ s1 tok, parseWord s = .ok ((), s1) ∧ s1.tkn = some tok ∧ tok ≠ [] ∧
      Added p (utf8 (tok.map lowerChar)) s s' := by
  unfold define at h
  have hi := hf.1
  obtain ⟨_, s1, e1, h⟩ := M.bind_inv h
  obtain ⟨tok0, s2, e2, h2⟩ := M.bind_inv h
  obtain ⟨ht, rfl⟩ := takeToken_inv e2
  clear h
  have h3 := Covers.elim h2 (by
    repeat' (first | with_reducible exact Deaf.redefining _ _ | covers_step))
  clear h2
  obtain ⟨f, s3, e3, h⟩ := M.bind_inv h3
  obtain ⟨_, s4, e4, h⟩ := M.bind_inv h
  have i1 : InSpace s := hi
  let B := Inv.any [Kind.token, .sourceIndex, .output]
  have p1 : Changes [.token, .sourceIndex, .output] s s1 :=
    Does.parseWord (A := B) (by decide) (by decide) _ _ _ ⟨hi, trivial⟩ e1
  have p3 := p1.trans (Does.find (A := B) _ _ _ _ _ ⟨p1.inSpace hi, trivial⟩ e3)
  have p4 : Changes [.token, .sourceIndex, .output] s s4 := by
    refine p3.trans ?_
    unfold redefining at e4
    split at e4
    · exact Does.outBytes (A := B) (by decide) _ _ _ _ ⟨p3.inSpace hi, trivial⟩ e4
    · cases e4; exact .refl _
  have hf4 : Fit A s4 := (p4.mono (by decide) : Changes plainKinds s s4).fit hf
  split at h
  · left
    obtain ⟨_, s5, e5, h5⟩ := M.bind_inv h
    have p5 : Changes plainKinds s s5 := (p4.mono (by decide)).trans
      (Does.putToken (A := A) (by decide) _ _ _ _ hf4 e5)
    have p6 : Changes plainKinds s s' := p5.trans
      (Does.abortWith (A := A) (by decide) hh _ (by decide) _ _ _
        (p5.fit hf) h5)
    exact ⟨p6, s5, p5, h5⟩
  · rename_i hne
    right
    obtain ⟨w1, w2, w3, w4⟩ := p4.pre
    refine ⟨s1, tok0, e1, ht, ?_, ?_⟩
    · rintro rfl
      exact hne rfl
    · obtain ⟨nfa, s5, e5, h⟩ := M.bind_inv h
      obtain ⟨_, s6, e6, h⟩ := M.bind_inv h
      obtain ⟨dfa, s7, e7, h⟩ := M.bind_inv h
      obtain ⟨_, s8, e8, h⟩ := M.bind_inv h
      have key := add_inv (c := c) (p := p) (name := utf8 (tok0.map lowerChar)) (s := s4) (s' := s8) (u := ())
        hf4.1 (by rw [M.bind_ok e5, M.bind_ok e6, M.bind_ok e7]; exact e8)
      cases h
      obtain ⟨a1, a2, a3, a4, a5, a6, a7, a8, a9⟩ := key
      rw [w1] at a4
      rw [w2] at a1 a2 a4 a5 a6 a7 a8
      exact ⟨a1, a2, a3, a4, a5, a6, a7, a8, a9.trans w3⟩

theorem define_inv {c : Ctx} {p : Prim} {A : Inv plainKinds} (hh : Does A (runHandler c)) {s s' : VM}
    {u : Unit} (hf : Fit A s) (h : define c p s = .ok (u, s')) :
    Changes plainKinds s s' ∨ ∃ name, name ≠ [] ∧ Added p name s s' := by
  rcases define_full hh hf h with ⟨h1, -⟩ | ⟨s1, tok, -, -, hne, h2⟩
  · exact .inl h1
  · refine .inr ⟨_, fun h0 => ?_, h2⟩
    cases tok with
    | nil => exact hne rfl
    | cons x xs =>
      rw [List.map_cons, utf8, List.flatMap_cons, List.append_eq_nil_iff, utf8Char, List.map_eq_nil_iff] at h0
      have := congrArg List.length h0.1
      rw [String.length_utf8EncodeChar] at this
      have := utf8Size_pos' (lowerChar x)
      simp at *

/-! ## Adding a word -/

theorem length_utf {s m : VM} {p : Prim} {name : List Byte} (hi : InSpace s) (h : Added p name s m) :
    name.length < 2 ^ 64 ∧ m.ds.here < 2 ^ 63 := by
  have h1 := h.here
  have h2 := h.len
  have h3 := hi.1
  rw [← h.start, ← h.cap] at h3
  simp only [DataSpace.here] at h1 ⊢
  omega

theorem Added.edit {c : Flags} {p : Prim} {name : List Byte} {s m t : VM} {w : Word} (hi : InSpace s)
    (h : Added p name s m) (hst : t.ds.start = m.ds.start)
    (hw : t.wl = { s.wl.push name w with tempBuckets := t.wl.tempBuckets })
    (hn : w.nfa = s.ds.here) (hd : w.dfa = m.ds.here)
    (hb : ∀ x, x < m.ds.here → t.ds.bytes x = m.ds.bytes x)
    (ht : m.ds.here + reserve w ≤ t.ds.here) (hv : c.ok false w.hidden)
    (hm : w.action = .core .unmark → 1 ≤ s.wl.words.length ∧
      t.ds.cellAt m.ds.here = toCell (s.wl.words.length - 1) ∧
      ∀ b : Fin 64, t.ds.cellAt (m.ds.here + 8 * (b.val + 1)) = toCell (s.wl.buckets b)) : Edit c s t := by
  obtain ⟨hl, hl'⟩ := length_utf hi h
  have hh := h.here
  have hc : t.ds.cellAt s.ds.here = toCell name.length := by
    rw [← h.count]
    exact cellAt_same fun x h1 h2 => hb x (by omega)
  refine .add name w (hst.trans h.start) hw (fun x hx => (hb x (by omega)).trans (h.below x hx)) hn ?_ ?_ ?_ ?_ ?_
  · rw [hn, hd, hc, toNat_toCell hl]; omega
  · rw [nameIn, hn, hc, toNat_toCell hl, ← h.text]
    have hlen : (m.ds.bytesAt (s.ds.here + 8) name.length).length = name.length := by rw [h.text]
    rw [hlen]
    exact bytesAt_congr fun x h1 h2 => hb x (by omega)
  · rw [hd]; exact ht
  · exact hv
  · rw [hd]; exact hm

theorem Added.edit' {c : Flags} {p : Prim} {name : List Byte} {s m : VM} (hp : p ≠ .core .unmark) (hi : InSpace s)
    (h : Added p name s m) {t : VM} (hst : t.ds.start = m.ds.start)
    (hw : t.wl = m.wl) (hb : ∀ x, x < m.ds.here → t.ds.bytes x = m.ds.bytes x)
    (ht : m.ds.here ≤ t.ds.here) : Edit c s t := by
  have hr : reserve (Word.new p .word s.ds.here m.ds.here) = 0 := if_neg hp
  refine h.edit (w := Word.new p .word s.ds.here m.ds.here) hi hst ?_ rfl rfl hb (by rw [hr]; exact ht) (c.refl _)
    fun e => absurd e hp
  rw [hw, h.wl]

/-- The last word gets other flags or another behaviour, among free changes. -/
theorem Spec.Edit.atLast {K : List Kind} (hK : ∀ k, k ∈ K → k ∈ freeKinds) {s t u v : VM} (h : Dict s)
    (c1 : Changes K s t) {f : Word → Word} {x : Unit} (hm : modWord t.wl.last f t = .ok (x, u))
    (hf : ∀ w, (f w).link = w.link ∧ (f w).hash = w.hash ∧ (f w).nfa = w.nfa ∧ (f w).dfa = w.dfa ∧
      ((f w).action = w.action ∨ (f w).action = .core .doesAction))
    {b : Flags} (hb : ∀ w, b.ok w.hidden (f w).hidden) (c2 : Changes K u v) : Edit b s v := by
  obtain ⟨a1, a2, a3, a4, a5, a6⟩ := c1.free hK
  obtain ⟨b1, b2, b3, b4, b5, b6⟩ := c2.free hK
  rw [modWord_apply] at hm
  cases hw : t.wl.words[t.wl.last]? with
  | none => rw [hw] at hm; cases hm
  | some w =>
    rw [hw] at hm
    cases hm
    simp only at b1 b2 b3 b4 b5 b6
    refine .keep (b6.trans a6) (h.intact (Nat.le_trans a4 b4) fun x hx => (b5 x (by omega)).trans (a5 x hx))
      (b1.trans a1) (b2.trans a2) ?_ fun _ => ⟨Nat.le_trans a4 b4, fun x hx => (b5 x (by omega)).trans (a5 x hx)⟩
    rw [a1] at b3 hw
    exact ((a3.mono fun _ _ => b.ofSame).trans (sameWords_set hw (hb w) (hf w))).trans (b3.mono fun _ _ => b.ofSame)

/-! ## `unmark` -/

theorem wordAt_inv {i : Nat} {s s' : VM} {w : Word} (h : wordAt i s = .ok (w, s')) :
    s.wl.words[i]? = some w ∧ s' = s := by
  rw [wordAt_apply] at h
  split at h <;> cases h
  exact ⟨‹_›, rfl⟩

/-- A machine with other hash buckets. -/
def withBuckets (s : VM) (f : Fin 64 → Nat) : VM := { s with wl := { s.wl with buckets := f } }

theorem unmarkLoop_inv (c : Ctx) (n : Nat) : ∀ {dfa : Nat} {i : Fin 64} {s s' : VM} {u : Unit},
    i.val + n ≤ 64 → dfa + 8 * n < 2 ^ 63 → unmarkLoop c n dfa i s = .ok (u, s') →
    s' = withBuckets s fun j => if i.val ≤ j.val ∧ j.val < i.val + n then
      (s.ds.cellAt (dfa + 8 * (j.val - i.val + 1))).toNat else s.wl.buckets j := by
  induction n with
  | zero =>
    intro dfa i s s' u _ _ h
    cases h
    have : s.wl.buckets = fun j => if i.val ≤ j.val ∧ j.val < i.val + 0 then
        (s.ds.cellAt (dfa + 8 * (j.val - i.val + 1))).toNat else s.wl.buckets j := by
      funext j
      rw [if_neg (by omega)]
    rw [← this, withBuckets]
  | succ n ih =>
    intro dfa i s s' u hn hd h
    unfold unmarkLoop at h
    obtain ⟨a, s1, e1, h1⟩ := M.bind_inv h
    clear h
    obtain ⟨e1, rfl⟩ := liftE_inv e1
    rw [uadd_ok (by have : usizeMod = 2 ^ 64 := rfl; omega)] at e1
    cases e1
    obtain ⟨x, s2, e2, h2⟩ := M.bind_inv h1
    clear h1
    obtain ⟨e2, rfl⟩ := dsRd_inv e2
    have hx : x = s2.ds.cellAt (dfa + 8) := by
      unfold DataSpace.getCell at e2
      split at e2 <;> cases e2
      rfl
    obtain ⟨_, s3, e3, h⟩ := M.bind_inv h2
    clear h2
    cases e3
    cases n with
    | zero =>
      cases h
      show withBuckets s2 _ = withBuckets s2 _
      congr 1
      funext j
      by_cases hj : j = i
      · subst hj
        rw [if_pos rfl, if_pos (by omega), hx]
        congr 3
        omega
      · have : j.val ≠ i.val := fun e => hj (Fin.ext e)
        rw [if_neg hj, if_neg (by omega)]
    | succ n =>
      have hi : (i + 1).val = i.val + 1 := by
        have := Fin.val_add i 1
        have h1 : (1 : Fin 64).val = 1 := rfl
        omega
      have := ih (by omega) (by omega) h
      rw [this]
      show withBuckets s2 _ = withBuckets s2 _
      congr 1
      funext j
      simp only [hi]
      by_cases hj : j = i
      · subst hj
        rw [if_neg (by omega), if_pos rfl, if_pos (by omega), hx]
        congr 3
        omega
      · have hne : j.val ≠ i.val := fun e => hj (Fin.ext e)
        by_cases hr : i.val + 1 ≤ j.val ∧ j.val < i.val + 1 + (n + 1)
        · rw [if_pos hr, if_pos (by omega)]
          congr 2
          omega
        · rw [if_neg hr, if_neg hj, if_neg (by omega)]

theorem newestIn_bound {ws : List Word} (b : Fin 64) (n : Nat) : newestIn ws b n ≤ n := by
  induction n with
  | zero => exact Nat.le_refl _
  | succ n ih =>
    unfold newestIn
    split
    · split <;> omega
    · omega

/-- `s` without word `k`, the marker `w`, and all newer words. -/
structure Forgotten (k : Nat) (w : Word) (s t : VM) : Prop where
  start : t.ds.start = s.ds.start
  bytes : t.ds.bytes = s.ds.bytes
  words : t.wl.words = s.wl.words.take k
  last : t.wl.last = k - 1
  buckets : ∀ b, t.wl.buckets b = newestIn s.wl.words b k
  here : t.ds.here = w.nfa

theorem unmark_inv {c : Ctx} {s s' : VM} {u : Unit} {w : Word} (h : Dict s) (hi : InSpace s)
    (hw : s.wl.words[s.task.st.wp]? = some w) (ha : w.action = .core .unmark)
    (e : unmark c s = .ok (u, s')) : Forgotten s.task.st.wp w s s' := by
  unfold unmark at e
  obtain ⟨m1, m2, m3⟩ := h.marks _ w hw ha
  obtain ⟨i1, i2, i3, i4, i5⟩ := h.inside hi hw
  have hr : reserve w = 520 := if_pos ha
  have hlen := (List.getElem?_eq_some_iff.1 hw).1
  have hlt := h.length_lt hi
  rw [M.bind_apply, getSt_apply] at e
  simp only at e
  obtain ⟨w', s1, e1, e⟩ := M.bind_inv e
  obtain ⟨e1, rfl⟩ := wordAt_inv e1
  rw [hw] at e1
  cases e1
  obtain ⟨x, s2, e2, e⟩ := M.bind_inv e
  obtain ⟨-, rfl⟩ := dsRd_inv e2
  obtain ⟨_, s3, e3, e⟩ := M.bind_inv e
  cases e3
  obtain ⟨_, s4, e4, e⟩ := M.bind_inv e
  have e4 := unmarkLoop_inv c 64 (by decide) (by omega) e4
  subst e4
  unfold withBuckets at e
  obtain ⟨_, s5, e5, e⟩ := M.bind_inv e
  rw [dsOp_apply] at e5
  cases e5
  rw [M.bind_apply, getWl_apply] at e
  simp only at e
  obtain ⟨l, s6, e6, e⟩ := M.bind_inv e
  obtain ⟨e6, rfl⟩ := liftE_inv e6
  rw [usub_ok (by rw [List.length_take]; omega), List.length_take] at e6
  cases e6
  cases e
  have htr : s2.ds.truncate w.nfa = { s2.ds with len := w.nfa - s2.ds.start } :=
    if_pos ⟨i1, by simp only [DataSpace.limit]; omega⟩
  refine ⟨?_, ?_, rfl, ?_, fun b => ?_, ?_⟩
  · simp only [htr]
  · simp only [htr]
  · show min _ _ - 1 = _
    omega
  · have hb := b.isLt
    have := newestIn_bound (ws := s2.wl.words) b s2.task.st.wp
    simp only [Fin.val_zero, Nat.zero_le, true_and, Nat.zero_add, if_pos hb, Nat.sub_zero]
    rw [m3 b, toNat_toCell (by omega)]
  · simp only [htr, DataSpace.here]
    omega

theorem unmark_edit {c : Ctx} {s s' : VM} {u : Unit} {w : Word} (h : Dict s) (hi : InSpace s)
    (hw : s.wl.words[s.task.st.wp]? = some w) (ha : w.action = .core .unmark)
    (e : unmark c s = .ok (u, s')) {c' : Flags} : Edit c' s s' := by
  obtain ⟨h1, h2, h3, h4, h5, h6⟩ := unmark_inv h hi hw ha e
  exact .forget _ w h1 h2 hw ha h3 h4 h5 h6

/-! ## The defining words -/

/-- A condition kept by changes of kinds in `K` is kept by fewer kinds. -/
def Spec.Inv.restrict {K L : List Kind} (A : Inv K) (h : ∀ k, k ∈ L → k ∈ K) : Inv L where
  holds := A.holds
  keep k s t hk hc hs := A.keep k s t (h k hk) hc hs

section
variable {c : Ctx} {A : Inv plainKinds} (hh : Does A (runHandler c)) {s s' : VM} {u : Unit}
  (hf : Fit A s) (hd : Dict s)
include hh hf hd

theorem define_edit {p : Prim} (hp : p ≠ .core .unmark) (h : define c p s = .ok (u, s')) {c' : Flags} : Edit c' s s' := by
  rcases define_inv hh hf h with h1 | ⟨name, -, h1⟩
  · exact .free plain_free hd h1
  · exact h1.edit' hp hf.1 rfl rfl (fun _ _ => rfl) (Nat.le_refl _)

theorem colon_edit (h : colon c s = .ok (u, s')) : Edit .hide s s' := by
  unfold colon at h
  obtain ⟨_, m, e1, h1⟩ := M.bind_inv h
  clear h
  rw [M.bind_apply, getError_apply] at h1
  simp only at h1
  cases hx : m.lastError with
  | some x =>
    rw [hx] at h1
    cases h1
    exact define_edit hh hf hd (by decide) e1
  | none =>
    rw [hx] at h1
    simp only at h1
    rw [M.bind_apply, getWl_apply] at h1
    simp only at h1
    obtain ⟨_, m2, e2, h2⟩ := M.bind_inv h1
    clear h1
    rcases define_inv hh hf e1 with h3 | ⟨name, -, h3⟩
    · refine Edit.atLast plain_free hd h3 e2 (fun w => ⟨rfl, rfl, rfl, rfl, .inl rfl⟩) (fun _ _ => rfl) ?_
      exact Does.modMode (A := Inv.any plainKinds) (by decide) _ _ _ _
        ⟨(h3.inSpace hf.1 : InSpace m) |> fun hi => by
          rw [modWord_apply] at e2
          split at e2 <;> cases e2
          exact hi, trivial⟩ h2
    · rw [modWord_apply] at e2
      split at e2 <;> cases e2
      rename_i w hw
      cases h2
      rw [h3.wl] at hw
      simp only [Wordlist.push, List.getElem?_concat_length, Option.some.injEq] at hw
      subst hw
      refine h3.edit (w := { Word.new (.core .nest) .word s.ds.here m.ds.here with hidden := true }) hf.1 rfl ?_
        rfl rfl (fun _ _ => rfl) (Nat.le_refl _) (fun _ => rfl) (fun e => by cases e)
      simp only [h3.wl, VM.setTask, Wordlist.push]
      rw [List.set_append_right _ _ (Nat.le_refl _), Nat.sub_self]
      rfl

theorem constant_edit (h : constant c s = .ok (u, s')) {c' : Flags} : Edit c' s s' := by
  unfold constant at h
  obtain ⟨v, s1, e1, h1⟩ := M.bind_inv h
  clear h
  have c1 : Changes plainKinds s s1 := Does.sPop (A := A) (by decide) _ _ _ hf e1
  cases e1
  obtain ⟨_, m, e2, h2⟩ := M.bind_inv h1
  clear h1
  have hf1 := c1.fit hf
  rw [M.bind_apply, getError_apply] at h2
  simp only at h2
  rcases define_inv hh hf1 e2 with h3 | ⟨name, -, h3⟩
  · have c2 := c1.trans h3
    cases hx : m.lastError with
    | some x => rw [hx] at h2; cases h2; exact .free plain_free hd c2
    | none =>
      rw [hx] at h2
      exact .free plain_free hd (c2.trans (Does.compileCell (A := A) (by decide) _ _ _ _ _ (c2.fit hf) h2))
  · have key : Appends m.ds s'.ds ∧ s'.wl = m.wl := by
      cases hx : m.lastError with
      | some x => rw [hx] at h2; cases h2; exact ⟨.refl h3.len, rfl⟩
      | none =>
        rw [hx] at h2
        simp only [compileCell, dsOp_apply] at h2
        cases hy : m.ds.compileCell c.oc s.task.s.pop.1 with
        | error e => rw [hy] at h2; cases h2
        | ok d =>
          rw [hy] at h2
          cases h2
          obtain ⟨h5, rfl⟩ := compileCell_appends (by rw [h3.start, h3.cap]; exact hf.1.1) hy
          exact ⟨appends_cell h5, rfl⟩
    obtain ⟨⟨n, b, a1, a2, a3, a4⟩, hw⟩ := key
    have hst : Added (.core .pConst) name s m := ⟨h3.start, h3.cap, h3.len, h3.wl, h3.below, h3.here,
      h3.count, h3.text, h3.error⟩
    refine hst.edit' (by decide) hf.1 (by rw [a4]) hw (fun x hx => ?_) ?_
    · rw [a4]; exact a3 x (.inl (by simpa only [DataSpace.here] using hx))
    · rw [a4]; simp only [DataSpace.here]; omega

theorem fconstant_edit (h : fconstant c s = .ok (u, s')) {c' : Flags} : Edit c' s s' := by
  unfold fconstant at h
  obtain ⟨v, s1, e1, h1⟩ := M.bind_inv h
  clear h
  have c1 : Changes plainKinds s s1 := Does.fPop (A := A) (by decide) _ _ _ hf e1
  cases e1
  obtain ⟨_, m, e2, h2⟩ := M.bind_inv h1
  clear h1
  have hf1 := c1.fit hf
  obtain ⟨_, m1, e3, h4⟩ := M.bind_inv h2
  clear h2
  rcases define_inv hh hf1 e2 with h3 | ⟨name, -, h3⟩
  · have c2 := c1.trans h3
    have c3 := c2.trans (Does.dsAlign (A := A) (by decide) _ _ _ _ (c2.fit hf) e3)
    exact .free plain_free hd (c3.trans (Does.compileCell' (A := A) (by decide) _ _ _ _ _ (c3.fit hf) h4))
  · have hst : Added (.flt .pFconst) name s m := ⟨h3.start, h3.cap, h3.len, h3.wl, h3.below, h3.here,
      h3.count, h3.text, h3.error⟩
    have hm : m.ds.start + m.ds.cap < 2 ^ 63 := by rw [hst.start, hst.cap]; exact hf.1.1
    rw [dsOp_apply] at e3
    cases hx : m.ds.align c.oc with
    | error e => simp only [hx] at e3; cases e3
    | ok d1 =>
      simp only [hx] at e3
      cases e3
      have ap1 := align_appends hm hst.len hx
      have hi1 := ap1.inSpace hm
      rw [dsOp_apply] at h4
      cases hy : d1.compileCell c.oc s.task.f.pop.1 with
      | error e => simp only [hy] at h4; cases h4
      | ok d2 =>
        simp only [hy] at h4
        cases h4
        obtain ⟨h5, rfl⟩ := compileCell_appends hi1.1 hy
        obtain ⟨n, b, a1, a2, a3, a4⟩ := ap1.trans (appends_cell (v := s.task.f.pop.1) h5)
        refine hst.edit' (by decide) hf.1 (by rw [a4]) rfl (fun x hx => ?_) ?_
        · rw [a4]; exact a3 x (.inl (by simpa only [DataSpace.here] using hx))
        · rw [a4]; simp only [DataSpace.here]; omega

theorem semicolon_edit (h : semicolon c s = .ok (u, s')) : Edit .reveal s s' := by
  unfold semicolon at h
  obtain ⟨_, s1, e1, h1⟩ := M.bind_inv h
  clear h
  have mode : ∀ {x y : VM} {v : Unit}, InSpace x → leftBracket x = .ok (v, y) → Changes plainKinds x y :=
    fun hi e => Does.modMode (A := Inv.any plainKinds) (by decide) _ _ _ _ ⟨hi, trivial⟩ e
  have abort : ∀ e, Reserved e → Does A (abortWith c e) := fun e he =>
    Does.abortWith (by decide) hh _ he
  unfold semicolonBody at e1
  rw [M.bind_apply, getVM_apply] at e1
  simp only at e1
  split at e1
  · have c1 := abort _ (by decide) _ _ _ hf e1
    exact .free plain_free hd (c1.trans (mode (c1.inSpace hf.1) h1))
  split at e1
  · have c1 := abort _ (by decide) _ _ _ hf e1
    exact .free plain_free hd (c1.trans (mode (c1.inSpace hf.1) h1))
  obtain ⟨w, s2, e2, e3⟩ := M.bind_inv e1
  obtain ⟨-, rfl⟩ := wordAt_inv e2
  obtain ⟨_, s3, e4, e5⟩ := M.bind_inv e3
  have c1 : Changes plainKinds s2 s3 := Does.compSemRun (A := A) hh plain_abort (by decide) _ _ _ _ _ hf e4
  rw [M.bind_apply, getWl_apply] at e5
  simp only at e5
  refine Edit.atLast plain_free hd c1 e5 (fun w => ⟨rfl, rfl, rfl, rfl, .inl rfl⟩) (fun _ e => by cases e) (mode ?_ h1)
  rw [modWord_apply] at e5
  split at e5 <;> cases e5
  exact c1.inSpace hf.1

end

section
variable {c : Ctx} {s s' : VM} {u : Unit} (hi : InSpace s) (hd : Dict s)

include hd in
theorem immediate_edit (h : immediate s = .ok (u, s')) {c' : Flags} : Edit c' s s' := by
  unfold immediate at h
  rw [M.bind_apply, getWl_apply] at h
  exact Edit.atLast (K := []) (by simp) hd (.refl s) h (fun w => ⟨rfl, rfl, rfl, rfl, .inl rfl⟩) (fun _ => c'.refl _) (.refl _)

include hd in
theorem compileOnly_edit (h : compileOnly s = .ok (u, s')) {c' : Flags} : Edit c' s s' := by
  unfold compileOnly at h
  rw [M.bind_apply, getWl_apply] at h
  exact Edit.atLast (K := []) (by simp) hd (.refl s) h (fun w => ⟨rfl, rfl, rfl, rfl, .inl rfl⟩) (fun _ => c'.refl _) (.refl _)

include hi hd in
theorem doesRt_edit (h : doesRt c s = .ok (u, s')) {c' : Flags} : Edit c' s s' := by
  unfold doesRt at h
  rw [M.bind_apply, getSt_apply] at h
  simp only at h
  obtain ⟨n, s1, e1, h1⟩ := M.bind_inv h
  clear h
  obtain ⟨-, rfl⟩ := liftE_inv e1
  obtain ⟨_, s2, e2, h2⟩ := M.bind_inv h1
  clear h1
  have c1 : Changes plainKinds s1 s2 :=
    Does.compileCell (A := Inv.any plainKinds) (by decide) _ _ _ _ _ ⟨hi, trivial⟩ e2
  rw [M.bind_apply, getWl_apply] at h2
  exact Edit.atLast plain_free hd c1 h2 (fun w => ⟨rfl, rfl, rfl, rfl, .inr rfl⟩) (fun _ => c'.refl _) (.refl _)

end

/-! ## `marker` -/

theorem compileCell_inv {c : Ctx} {v : Cell} {s s' : VM} {u : Unit} (hi : s.ds.start + s.ds.cap < 2 ^ 63)
    (h : compileCell c v s = .ok (u, s')) : s.ds.len + 8 ≤ s.ds.cap ∧
    s' = { s with ds := { s.ds.setCell s.ds.here v with len := s.ds.len + 8 } } := by
  simp only [compileCell, dsOp_apply] at h
  cases hy : s.ds.compileCell c.oc v with
  | error e => rw [hy] at h; cases h
  | ok d =>
    rw [hy] at h
    cases h
    obtain ⟨h5, rfl⟩ := compileCell_appends hi hy
    exact ⟨h5, rfl⟩

theorem markerLoop_inv (c : Ctx) (l : List (Fin 64)) : ∀ {s s' : VM} {u : Unit},
    s.ds.start + s.ds.cap < 2 ^ 63 → markerLoop c l s = .ok (u, s') →
    s'.wl = s.wl ∧ s'.ds.start = s.ds.start ∧ s'.ds.here = s.ds.here + 8 * l.length ∧
    (∀ x, x < s.ds.here → s'.ds.bytes x = s.ds.bytes x) ∧
    ∀ (i : Nat) b, l[i]? = some b → s'.ds.cellAt (s.ds.here + 8 * i) = toCell (s.wl.tempBuckets b) := by
  induction l with
  | nil =>
    intro s s' u _ h
    cases h
    exact ⟨rfl, rfl, rfl, fun _ _ => rfl, fun i b hb => by rw [List.getElem?_nil] at hb; cases hb⟩
  | cons b l ih =>
    intro s s' u hi h
    unfold markerLoop at h
    rw [M.bind_apply, getWl_apply] at h
    simp only at h
    obtain ⟨_, s1, e1, h1⟩ := M.bind_inv h
    obtain ⟨h2, rfl⟩ := compileCell_inv hi e1
    obtain ⟨i1, i2, i3, i4, i5⟩ := ih (by simpa using hi) h1
    have hh : ({ s.ds.setCell s.ds.here (toCell (s.wl.tempBuckets b)) with len := s.ds.len + 8 } : DataSpace).here
        = s.ds.here + 8 := by simp only [DataSpace.here, DataSpace.setCell_start]; omega
    simp only [hh] at i3 i4 i5
    refine ⟨i1, i2, by rw [i3, List.length_cons]; omega, fun x hx => ?_, fun i b' hb => ?_⟩
    · rw [i4 x (by omega)]
      exact DataSpace.setCell_bytes_out (.inl hx)
    · cases i with
      | zero =>
        cases hb
        rw [← DataSpace.cellAt_setCell s.ds s.ds.here (toCell (s.wl.tempBuckets b))]
        exact cellAt_same fun x h1 h2 => i4 x (by omega)
      | succ i =>
        rw [← i5 i b' hb]
        congr 1
        omega

theorem marker_edit {c' : Flags} {c : Ctx} {A : Inv plainKinds} (hh : Does A (runHandler c)) {s s' : VM} {u : Unit}
    (hf : Fit A s) (hd : Dict s) (h0 : 1 ≤ s.wl.words.length) (h : marker c s = .ok (u, s')) :
    Edit c' s s' := by
  unfold marker at h
  rw [M.bind_apply, getWl_apply] at h
  simp only at h
  obtain ⟨_, s1, e1, h1⟩ := M.bind_inv h
  clear h
  have c1 : Changes plainKinds s s1 := Does.saveBuckets (A := A) (by decide) _ _ _ hf e1
  cases e1
  obtain ⟨_, m, e2, h2⟩ := M.bind_inv h1
  clear h1
  obtain ⟨_, m1, e3, h3⟩ := M.bind_inv h2
  clear h2
  rcases define_inv hh (c1.fit hf) e2 with h4 | ⟨name, -, h4⟩
  · have c2 := c1.trans h4
    have c3 := c2.trans (Does.compileCell (A := A) (by decide) _ _ _ _ _ (c2.fit hf) e3)
    exact .free plain_free hd (c3.trans (Does.markerLoop (A := A) (by decide) _ _ _ _ _ (c3.fit hf) h3))
  · have hm : m.ds.start + m.ds.cap < 2 ^ 63 := by rw [h4.start, h4.cap]; exact hf.1.1
    obtain ⟨h5, rfl⟩ := compileCell_inv hm e3
    obtain ⟨l1, l2, l3, l4, l5⟩ := markerLoop_inv c _ (by simpa using hm) h3
    have hhere : ({ m.ds.setCell m.ds.here (toCell s.wl.last) with len := m.ds.len + 8 } : DataSpace).here
        = m.ds.here + 8 := by simp only [DataSpace.here, DataSpace.setCell_start]; omega
    simp only [hhere, List.length_finRange] at l3 l4 l5
    have hwl : m.wl = { s.wl.push name (Word.new (.core .unmark) .word s.ds.here m.ds.here) with
        tempBuckets := s.wl.buckets } := by rw [h4.wl]; rfl
    have hadd : Added (.core .unmark) name { s with wl := { s.wl with tempBuckets := s.wl.buckets } } m := h4
    have hb : ∀ x, x < m.ds.here → s'.ds.bytes x = m.ds.bytes x := fun x hx => by
      rw [l4 x (by omega)]
      exact DataSpace.setCell_bytes_out (.inl hx)
    have l1' : s'.wl = m.wl := l1
    have l2' : s'.ds.start = m.ds.start := l2
    have hr : reserve (Word.new (.core .unmark) .word s.ds.here m.ds.here) = 520 := if_pos rfl
    have key : Edit .same { s with wl := { s.wl with tempBuckets := s.wl.buckets } } s' := by
      refine hadd.edit (t := s') (w := Word.new (.core .unmark) .word s.ds.here m.ds.here) hf.1 l2'
        (by rw [l1', hwl]; rfl) rfl rfl hb (by rw [l3, hr]; omega) rfl fun _ => ⟨h0, ?_, fun b => ?_⟩
      · show s'.ds.cellAt m.ds.here = toCell (s.wl.words.length - 1)
        rw [← hd.last, ← DataSpace.cellAt_setCell m.ds m.ds.here (toCell s.wl.last)]
        exact cellAt_same fun x h1 h2 => l4 x (by omega)
      · rw [show m.ds.here + 8 * (b.val + 1) = m.ds.here + 8 + 8 * b.val by omega, l5 b.val b (by simp)]
        show toCell (m.wl.tempBuckets b) = _
        rw [hwl]
    cases key with
    | keep _ _ _ _ words =>
      have e1 := words.1
      rw [l1', hwl] at e1
      simp [Wordlist.push] at e1
    | add name' w start wl below nfa dfa named here shown mark =>
      exact .add name' w start wl below nfa dfa named here (c'.ofSame shown) mark
    | forget k w _ _ _ _ words =>
      have e1 := congrArg List.length words
      rw [l1', hwl] at e1
      simp [Wordlist.push, List.length_take] at e1
      omega

/-! ## Every word -/

theorem footprint_words (p : Prim) : (.wordAdd ∈ footprint p ∨ .wordLast ∈ footprint p ∨ .wordForget ∈ footprint p) →
    p ∈ [Prim.core .colon, .core .constant, .core .create, .core .marker, .flt .fconstant, .core .semicolon,
      .core .immediate, .core .compileOnly, .core .doesRt, .core .unmark] := by
  cases p with
  | core p => cases p <;> decide
  | out p => cases p <;> decide
  | tool p => cases p <;> decide
  | env p => cases p <;> decide
  | flt p => cases p <;> decide
  | unit p => cases p <;> decide
  | file p => cases p <;> decide
  | load p => cases p <;> decide
  | receive => decide

theorem footprint_raises (p : Prim) (hr : raises p = true) (h1 : .wordAdd ∉ footprint p)
    (h2 : .wordLast ∉ footprint p) : ∀ k, k ∈ footprint p → k ∈ Kind.memWrite :: plainKinds := by
  revert hr h1 h2
  cases p with
  | core p => cases p <;> decide
  | out p => cases p <;> decide
  | tool p => cases p <;> decide
  | env p => cases p <;> decide
  | flt p => cases p <;> decide
  | unit p => cases p <;> decide
  | file p => cases p <;> decide
  | load p => cases p <;> decide
  | receive => decide

theorem kind_free (k : Kind) : k ∈ freeKinds ∨ k ∈ [Kind.memWrite, .memHere, .wordAdd, .wordLast, .wordForget] := by
  cases k <;> decide

/-- Changes other than to words keep the words; if also the dictionary is intact, it is the same. -/
theorem Spec.Edit.written {b : Flags} {K : List Kind} (h1 : .wordAdd ∉ K) (h2 : .wordLast ∉ K) (h3 : .wordForget ∉ K)
    {s t : VM} (hi : Intact s t) (hc : Changes K s t) (hb : b.writes = true) : Edit b s t := by
  have key : t.wl.last = s.wl.last ∧ t.wl.buckets = s.wl.buckets ∧
      SameWords .same s.wl.last s.wl.words t.wl.words ∧ t.ds.start = s.ds.start := by
    clear hi
    induction hc with
    | refl => exact ⟨rfl, rfl, .refl _ _ _, rfl⟩
    | @tail u v k _ hk hc ih =>
      obtain ⟨i1, i2, i3, i4⟩ := ih
      obtain ⟨a1, a2, a3⟩ := hc.same (fun e => h1 (e ▸ hk)) (fun e => h2 (e ▸ hk)) (fun e => h3 (e ▸ hk))
      exact ⟨a1.trans i1, a2.trans i2, i3.trans (i1 ▸ a3), hc.ds.1.trans i4⟩
  exact .keep key.2.2.2 hi key.1 key.2.1 (key.2.2.1.mono (fun _ _ => b.ofSame)) fun e => by rw [hb] at e; cases e

theorem action_edit {c : Ctx} {p : Prim} {s s' : VM} {u : Unit} (hd : Dict s) (hi : InSpace s)
    (he : executes p = false) (hq : raises p = true → QuietHandler c s)
    (hp : ∃ w, s.wl.words[s.task.st.wp]? = some w ∧ w.action = p)
    (hint : .memWrite ∈ footprint p ∨ .memHere ∈ footprint p ∧ p ≠ .core .unmark → Intact s s')
    (h : action c p s = .ok (u, s')) :
    Edit (flagsOf p) s s' := by
  have hlen : 1 ≤ s.wl.words.length := by
    obtain ⟨w, hw, -⟩ := hp
    have := (List.getElem?_eq_some_iff.1 hw).1
    omega
  by_cases hw : .wordAdd ∈ footprint p ∨ .wordLast ∈ footprint p ∨ .wordForget ∈ footprint p
  · have hm := footprint_words p hw
    have plain : raises p = true → ∃ A : Inv plainKinds, Fit A s ∧ Does A (runHandler c) := fun hr => by
      obtain ⟨A, hA, hh⟩ := hq hr
      exact ⟨A.restrict fun k hk => List.mem_cons_of_mem _ hk, ⟨hi, hA⟩, fun x a y hx e => hh x a y hx e⟩
    simp only [List.mem_cons, List.not_mem_nil, or_false] at hm
    rcases hm with rfl | rfl | rfl | rfl | rfl | rfl | rfl | rfl | rfl | rfl
    · obtain ⟨A, hf, hh⟩ := plain rfl
      exact colon_edit hh hf hd h
    · obtain ⟨A, hf, hh⟩ := plain rfl
      exact constant_edit hh hf hd h
    · obtain ⟨A, hf, hh⟩ := plain rfl
      exact define_edit hh hf hd (by decide) h
    · obtain ⟨A, hf, hh⟩ := plain rfl
      exact marker_edit hh hf hd hlen h
    · obtain ⟨A, hf, hh⟩ := plain rfl
      exact fconstant_edit hh hf hd h
    · obtain ⟨A, hf, hh⟩ := plain rfl
      exact semicolon_edit hh hf hd h
    · exact immediate_edit hd h
    · exact compileOnly_edit hd h
    · exact doesRt_edit hi hd h
    · obtain ⟨w, hw, ha⟩ := hp
      exact unmark_edit hd hi hw ha h
  · simp only [not_or] at hw
    obtain ⟨w1, w2, w3⟩ := hw
    have hpu : p ≠ .core .unmark := by rintro rfl; exact w3 (by decide)
    have free : .memWrite ∉ footprint p → .memHere ∉ footprint p → ∀ k, k ∈ footprint p → k ∈ freeKinds := by
      intro n1 n2 k hk
      rcases kind_free k with hk' | hk'
      · exact hk'
      · simp only [List.mem_cons, List.not_mem_nil, or_false] at hk'
        rcases hk' with rfl | rfl | rfl | rfl | rfl
        · exact absurd hk n1
        · exact absurd hk n2
        · exact absurd hk w1
        · exact absurd hk w2
        · exact absurd hk w3
    cases hr : raises p with
    | false =>
      have hc := Does.action (A := Inv.any (footprint p)) (c := c) p (fun e => by rw [hr] at e; cases e)
        (fun e => by rw [he] at e; cases e) (fun _ hk => hk) s u s' ⟨hi, trivial⟩ h
      by_cases n1 : .memWrite ∈ footprint p
      · exact .written w1 w2 w3 (hint (.inl n1)) hc (decide_eq_true (.inl n1))
      by_cases n2 : .memHere ∈ footprint p
      · exact .written w1 w2 w3 (hint (.inr ⟨n2, hpu⟩)) hc (decide_eq_true (.inr ⟨n2, hpu⟩))
      exact .free (free n1 n2) hd hc
    | true =>
      obtain ⟨A, hA, hh⟩ := hq hr
      have hsub := footprint_raises p hr w1 w2
      by_cases n1 : .memWrite ∈ footprint p
      · have hc := Does.action (A := A) (c := c) p (fun _ x a y hx e => (hh x a y hx e).mono fun k hk =>
          List.mem_cons_of_mem _ hk) (fun e => by rw [he] at e; cases e) hsub s u s' ⟨hi, hA⟩ h
        exact .written (by decide) (by decide) (by decide) (hint (.inl n1)) hc (decide_eq_true (.inl n1))
      · have hsub' : ∀ k, k ∈ footprint p → k ∈ plainKinds := fun k hk => by
          rcases List.mem_cons.1 (hsub k hk) with rfl | hk'
          · exact absurd hk n1
          · exact hk'
        have hc := Does.action (A := A.restrict fun k hk => List.mem_cons_of_mem _ hk) (c := c) p
          (fun _ x a y hx e => hh x a y hx e) (fun e => by rw [he] at e; cases e) hsub' s u s' ⟨hi, hA⟩ h
        exact .free plain_free hd hc

end Verif
