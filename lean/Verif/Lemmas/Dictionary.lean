import Verif.Spec.Dictionary
import Verif.Lemmas.Reach

/-!
# The dictionary
-/

namespace Verif
open Spec

/-! ## Names -/

theorem lowerByte_toNat (b : Byte) :
    (lowerByte b).toNat = if 65 ≤ b.toNat ∧ b.toNat ≤ 90 then b.toNat + 32 else b.toNat := by
  unfold lowerByte
  split
  · rw [BitVec.toNat_add]
    have : b.toNat < 256 := b.isLt
    simp; omega
  · rfl

theorem lowerByte_eq_iff (a b : Byte) : lowerByte a = lowerByte b ↔ SameLetter a b := by
  rw [← BitVec.toNat_inj, lowerByte_toNat, lowerByte_toNat, SameLetter, ← BitVec.toNat_inj]
  split <;> split <;> omega

theorem sameName_iff (a b : List Byte) : SameName a b ↔ a.map lowerByte = b.map lowerByte := by
  constructor
  · intro ⟨hl, h⟩
    refine List.ext_getElem (by simpa using hl) fun i h1 h2 => ?_
    rw [List.getElem_map, List.getElem_map, lowerByte_eq_iff]
    simp only [List.length_map] at h1 h2
    exact h i _ _ (List.getElem?_eq_getElem h1) (List.getElem?_eq_getElem h2)
  · intro h
    have hl : a.length = b.length := by simpa using congrArg List.length h
    refine ⟨hl, fun i x y hx hy => ?_⟩
    rw [← lowerByte_eq_iff]
    have := congrArg (fun l : List Byte => l[i]?) h
    simp only [List.getElem?_map, hx, hy, Option.map_some, Option.some.injEq] at this
    exact this

theorem eqIgnoreCase_iff (a b : List Byte) : eqIgnoreCase a b = true ↔ SameName a b := by
  rw [sameName_iff, eqIgnoreCase, beq_iff_eq]

theorem lowerByte_lowerByte (b : Byte) : lowerByte (lowerByte b) = lowerByte b := by
  rw [← BitVec.toNat_inj, lowerByte_toNat, lowerByte_toNat]
  split
  · rw [if_neg (by omega)]
  · rfl

theorem hash_map_lower (a : List Byte) : Wordlist.hash (a.map lowerByte) = Wordlist.hash a := by
  unfold Wordlist.hash
  generalize (5381 : BitVec 32) = h
  induction a generalizing h with
  | nil => rfl
  | cons x xs ih =>
    simp only [List.map_cons, List.foldl_cons]
    rw [show Wordlist.hashStep h (lowerByte x) = Wordlist.hashStep h x by
      simp only [Wordlist.hashStep, lowerByte_lowerByte]]
    exact ih _

theorem SameName.hash {a b : List Byte} (h : SameName a b) : Wordlist.hash a = Wordlist.hash b := by
  rw [← hash_map_lower a, ← hash_map_lower b, (sameName_iff a b).1 h]

/-! ## The newest word of a bucket -/

theorem newestIn_lt {ws : List Word} {b : Fin 64} {n : Nat} (h : 0 < n) : newestIn ws b n < n := by
  induction n with
  | zero => omega
  | succ n ih =>
    unfold newestIn
    split
    · split
      · omega
      · rcases Nat.eq_zero_or_pos n with rfl | h'
        · simp [newestIn]
        · have := ih h'; omega
    · rcases Nat.eq_zero_or_pos n with rfl | h'
      · simp [newestIn]
      · have := ih h'; omega

theorem newestIn_le {ws : List Word} {b : Fin 64} {n : Nat} : newestIn ws b n ≤ n := by
  rcases Nat.eq_zero_or_pos n with rfl | h
  · exact Nat.le_refl _
  · exact Nat.le_of_lt (newestIn_lt h)

theorem newestIn_mem {ws : List Word} {b : Fin 64} {n : Nat} (h : newestIn ws b n ≠ 0) :
    ∃ w, ws[newestIn ws b n]? = some w ∧ Wordlist.bucketOf w.hash = b := by
  induction n with
  | zero => exact absurd rfl h
  | succ n ih =>
    unfold newestIn at h ⊢
    cases hw : ws[n]? with
    | none => rw [hw] at h; exact ih h
    | some w =>
      rw [hw] at h
      simp only at h ⊢
      split at h
      · rename_i hb
        rw [if_pos hb]
        exact ⟨w, hw, hb⟩
      · rename_i hb
        rw [if_neg hb]
        exact ih h

theorem newestIn_above {ws : List Word} {b : Fin 64} {n : Nat} :
    ∀ i w, newestIn ws b n < i → i < n → ws[i]? = some w → Wordlist.bucketOf w.hash ≠ b := by
  induction n with
  | zero => intro i w _ h; omega
  | succ n ih =>
    intro i w h1 h2 hw
    unfold newestIn at h1
    rcases Nat.lt_or_ge i n with h3 | h3
    · refine ih i w ?_ h3 hw
      split at h1
      · split at h1
        · omega
        · exact h1
      · exact h1
    · have : i = n := by omega
      subst this
      rw [hw] at h1
      simp only at h1
      split at h1
      · omega
      · assumption

theorem newestIn_congr {ws vs : List Word} {b : Fin 64} {n : Nat}
    (h : ∀ i, i < n → (ws[i]?).map (·.hash) = (vs[i]?).map (·.hash)) : newestIn ws b n = newestIn vs b n := by
  induction n with
  | zero => rfl
  | succ n ih =>
    have := ih fun i hi => h i (by omega)
    have hn := h n (by omega)
    unfold newestIn
    cases hw : ws[n]? <;> cases hv : vs[n]? <;> rw [hw, hv] at hn <;> simp at hn
    · exact this
    · simp only [hn, this]

theorem newestIn_append {ws vs : List Word} {b : Fin 64} {n : Nat} (h : n ≤ ws.length) :
    newestIn (ws ++ vs) b n = newestIn ws b n :=
  newestIn_congr fun i hi => by rw [List.getElem?_append_left (by omega)]

theorem newestIn_take {ws : List Word} {b : Fin 64} {n k : Nat} (h : n ≤ k) :
    newestIn (ws.take k) b n = newestIn ws b n :=
  newestIn_congr fun i hi => by rw [List.getElem?_take_of_lt (by omega)]

/-! ## Finding -/

theorem Spec.Dict.size {s : VM} (h : Dict s) (i : Nat) (w : Word)
    (hw : s.wl.words[i]? = some w) : s.ds.start + 8 * i ≤ w.nfa := by
  induction i generalizing w with
  | zero => exact h.low 0 w hw
  | succ i ih =>
    have hlt := (List.getElem?_eq_some_iff.1 hw).1
    have hv : s.wl.words[i]? = some s.wl.words[i] := List.getElem?_eq_getElem (by omega)
    have h1 := ih _ hv
    have h2 := h.high i _ hv
    have h3 := h.apart i (i + 1) _ _ (by omega) hv hw
    omega

theorem Spec.Dict.inside {s : VM} (h : Dict s) (hi : InSpace s) {i : Nat} {w : Word}
    (hw : s.wl.words[i]? = some w) : s.ds.start ≤ w.nfa ∧
      w.nfa + 8 + (s.ds.cellAt w.nfa).toNat ≤ w.dfa ∧ w.dfa + reserve w ≤ s.ds.here ∧
      s.ds.here ≤ s.ds.start + s.ds.cap ∧ s.ds.start + s.ds.cap < 2 ^ 63 :=
  ⟨h.low i w hw, h.high i w hw, h.top i w hw, by have := hi.2; simp only [DataSpace.here]; omega, hi.1⟩

theorem Spec.Dict.length_lt {s : VM} (h : Dict s) (hi : InSpace s) : s.wl.words.length < 2 ^ 63 := by
  rcases Nat.eq_zero_or_pos s.wl.words.length with h0 | h0
  · omega
  have hw : s.wl.words[s.wl.words.length - 1]? = some s.wl.words[s.wl.words.length - 1] :=
    List.getElem?_eq_getElem (by omega)
  have h1 := h.size _ _ hw
  have h2 := h.inside hi hw
  omega

theorem Spec.Dict.getStr {s : VM} (h : Dict s) (hi : InSpace s) {i : Nat} {w : Word} {oc : Bool}
    (hw : s.wl.words[i]? = some w) : s.ds.getStr oc w.nfa = .ok (nameIn s.ds w) := by
  obtain ⟨h1, h2, h3, h4, h5⟩ := h.inside hi hw
  have hl : w.nfa + 8 + (s.ds.cellAt w.nfa).toNat ≤ s.ds.limit := by
    simp only [DataSpace.limit]; omega
  have hu : uadd oc w.nfa 8 = .ok (w.nfa + 8) := by
    apply uadd_ok
    have : usizeMod = 2 ^ 64 := rfl
    omega
  have v1 : s.ds.getCell w.nfa = .ok (s.ds.cellAt w.nfa) := if_pos ⟨h1, by omega⟩
  have v2 : s.ds.getBytes (w.nfa + 8) (s.ds.cellAt w.nfa).toNat = .ok (nameIn s.ds w) := by
    unfold DataSpace.getBytes nameIn
    by_cases h0 : (s.ds.cellAt w.nfa).toNat = 0
    · rw [if_pos h0, h0]; rfl
    · rw [if_neg h0, if_pos ⟨by omega, hl⟩]
  unfold DataSpace.getStr
  rw [v1, Except.ok_bind', hu, Except.ok_bind', v2]

/-- The walk along a chain finds the newest visible word of the name. -/
theorem findLoop_newest {s : VM} (h : Dict s) (hi : InSpace s) (oc : Bool) (name : List Byte) :
    ∀ m, m ≤ s.wl.words.length → ∀ fuel, newestIn s.wl.words (Wordlist.bucketOf (Wordlist.hash name)) m < fuel →
    ∃ r, findLoop oc s (Wordlist.hash name) name fuel
        (newestIn s.wl.words (Wordlist.bucketOf (Wordlist.hash name)) m) = .ok r ∧
      match r with
      | some i => i < m ∧ Visible s name i ∧ ∀ j, i < j → j < m → ¬ Visible s name j
      | none => ∀ j, j < m → ¬ Visible s name j := by
  intro m
  induction m using Nat.strongRecOn with
  | _ m ih =>
  intro hm fuel hf
  generalize hB : Wordlist.bucketOf (Wordlist.hash name) = B at hf ih ⊢
  cases fuel with
  | zero => omega
  | succ fuel =>
  have above : ∀ j, newestIn s.wl.words B m < j → j < m → ¬ Visible s name j := by
    intro j h1 h2 ⟨_, w, hw, _, hn⟩
    have := newestIn_above j w h1 h2 hw
    rw [h.hash j w hw, SameName.hash hn] at this
    exact this hB
  unfold findLoop
  by_cases h0 : newestIn s.wl.words B m = 0
  · rw [if_pos h0]
    refine ⟨none, rfl, fun j hj hv => ?_⟩
    exact above j (by have := hv.1; omega) hj hv
  · rw [if_neg h0]
    obtain ⟨w, hw, hb⟩ := newestIn_mem h0
    have hlt : newestIn s.wl.words B m < m := newestIn_lt (by
      rcases Nat.eq_zero_or_pos m with rfl | h'
      · exact absurd rfl h0
      · exact h')
    rw [hw]
    simp only
    have hlink := h.link _ w hw
    rw [hb] at hlink
    have rest : (¬ (w.hidden = false ∧ SameName (nameIn s.ds w) name)) → ∃ r,
        findLoop oc s (Wordlist.hash name) name fuel w.link = .ok r ∧
        match r with
        | some i => i < m ∧ Visible s name i ∧ ∀ j, i < j → j < m → ¬ Visible s name j
        | none => ∀ j, j < m → ¬ Visible s name j := by
      intro hno
      rw [hlink]
      have notw : ¬ Visible s name (newestIn s.wl.words B m) := by
        intro ⟨_, w', hw', h1, h2⟩
        rw [hw] at hw'
        cases hw'
        exact hno ⟨h1, h2⟩
      have hfuel : newestIn s.wl.words B (newestIn s.wl.words B m) < fuel := by
        have := newestIn_lt (ws := s.wl.words) (b := B) (n := newestIn s.wl.words B m) (by omega)
        omega
      obtain ⟨r, hr, hr'⟩ := ih _ hlt (by omega) fuel hfuel
      refine ⟨r, hr, ?_⟩
      have step : ∀ j, j < m → Visible s name j → j < newestIn s.wl.words B m := by
        intro j hj hv
        rcases Nat.lt_trichotomy j (newestIn s.wl.words B m) with h1 | h1 | h1
        · exact h1
        · exact absurd (h1 ▸ hv) notw
        · exact absurd hv (above j h1 hj)
      cases r with
      | none => exact fun j hj hv => hr' j (step j hj hv) hv
      | some i =>
        exact ⟨by have := hr'.1; omega, hr'.2.1, fun j h1 h2 hv => hr'.2.2 j h1 (step j h2 hv) hv⟩
    split
    · rename_i hh
      rw [h.getStr hi hw]
      simp only
      split
      · rename_i he
        exact ⟨some _, rfl, hlt, ⟨by omega, w, hw, hh.1, (eqIgnoreCase_iff _ _).1 he⟩, above⟩
      · rename_i he
        exact rest fun hc => he ((eqIgnoreCase_iff _ _).2 hc.2)
    · rename_i hh
      refine rest fun hc => hh ⟨hc.1, ?_⟩
      rw [h.hash _ w hw, SameName.hash hc.2]

theorem Spec.Dict.find {s : VM} (h : Dict s) (hi : InSpace s) (c : Ctx) (name : List Byte) :
    ∃ r, Verif.find c name s = .ok (r, s) ∧ Newest s name r := by
  have hb := h.buckets (Wordlist.bucketOf (Wordlist.hash name))
  obtain ⟨r, hr, hr'⟩ := findLoop_newest h hi c.oc name _ (Nat.le_refl _) (s.wl.words.length + 1)
    (Nat.lt_succ_of_le newestIn_le)
  refine ⟨r, by simp only [Verif.find, hb, hr], ?_⟩
  have bound : ∀ j, Visible s name j → j < s.wl.words.length := fun j ⟨_, w, hw, _⟩ =>
    (List.getElem?_eq_some_iff.1 hw).1
  cases r with
  | none => exact fun j hv => hr' j (bound j hv) hv
  | some i => exact ⟨hr'.2.1, fun j hj hv => hr'.2.2 j hj (bound j hv) hv⟩

/-- There is at most one newest word. -/
theorem Newest.unique {s : VM} {name : List Byte} {r r' : Option Nat} (h : Newest s name r)
    (h' : Newest s name r') : r = r' := by
  cases r with
  | none =>
    cases r' with
    | none => rfl
    | some j => exact absurd h'.1 (h j)
  | some i =>
    cases r' with
    | none => exact absurd h.1 (h' i)
    | some j =>
      rcases Nat.lt_trichotomy i j with h1 | h1 | h1
      · exact absurd h'.1 (h.2 j h1)
      · rw [h1]
      · exact absurd h.1 (h'.2 i h1)

/-! ## Keeping the dictionary in order -/

theorem Spec.Flags.refl (b : Flags) (x : Bool) : b.ok x x := by
  unfold Flags.ok
  cases b.mask <;> simp [Hiding.ok]

theorem Spec.Flags.trans (b : Flags) {x y z : Bool} (h : b.ok x y) (k : b.ok y z) : b.ok x z := by
  unfold Flags.ok at *
  cases hb : b.mask <;> rw [hb] at h k <;> simp only [Hiding.ok] at *
  · exact k.trans h
  · exact fun e => k (h e)
  · exact fun e => h (k e)

theorem Spec.Flags.ofSame (b : Flags) {x y : Bool} (h : Flags.same.ok x y) : b.ok x y := by
  cases h; exact b.refl x

theorem Spec.SameWords.refl (b : Flags) (l : Nat) (ws : List Word) : SameWords b l ws ws :=
  ⟨rfl, fun i v w hv hw => by
    rw [hv] at hw; cases hw; exact ⟨⟨rfl, rfl, rfl, rfl, .inl rfl⟩, b.refl _, fun _ => ⟨_, _, rfl⟩⟩⟩

theorem Spec.SameWords.mono {b c : Flags} {l : Nat} {ws vs : List Word} (h : SameWords b l ws vs)
    (hbc : ∀ x y, b.ok x y → c.ok x y) : SameWords c l ws vs :=
  ⟨h.1, fun i v w hv hw => ⟨(h.2 i v w hv hw).1, hbc _ _ (h.2 i v w hv hw).2.1, (h.2 i v w hv hw).2.2⟩⟩

theorem Spec.SameWords.get {b : Flags} {l : Nat} {ws vs : List Word} (h : SameWords b l ws vs) {i : Nat} {v : Word}
    (hv : vs[i]? = some v) :
    ∃ w, ws[i]? = some w ∧ v.link = w.link ∧ v.hash = w.hash ∧ v.nfa = w.nfa ∧ v.dfa = w.dfa ∧
      (v.action = .core .unmark → w.action = .core .unmark) := by
  have hlt := (List.getElem?_eq_some_iff.1 hv).1
  rw [h.1] at hlt
  have hw := List.getElem?_eq_getElem hlt
  obtain ⟨⟨h1, h2, h3, h4, h5⟩, -⟩ := h.2 i v _ hv hw
  refine ⟨_, hw, h1, h2, h3, h4, fun e => ?_⟩
  rcases h5 with h5 | h5
  · rw [← h5]; exact e
  · rw [h5] at e; cases e

theorem Spec.SameWords.trans {b : Flags} {l : Nat} {us vs ws : List Word} (h : SameWords b l us vs)
    (k : SameWords b l vs ws) : SameWords b l us ws := by
  refine ⟨k.1.trans h.1, fun i w u hw hu => ?_⟩
  obtain ⟨v, hv, -⟩ := k.get hw
  obtain ⟨⟨h1, h2, h3, h4, h5⟩, h7, h6⟩ := h.2 i v u hv hu
  obtain ⟨⟨k1, k2, k3, k4, k5⟩, k7, k6⟩ := k.2 i w v hw hv
  refine ⟨⟨k1.trans h1, k2.trans h2, k3.trans h3, k4.trans h4, ?_⟩, b.trans h7 k7,
    fun hi => ?_⟩
  · rcases k5 with k5 | k5
    · rw [k5]; exact h5
    · exact .inr k5
  · obtain ⟨a, b, rfl⟩ := h6 hi
    obtain ⟨a', b', rfl⟩ := k6 hi
    exact ⟨a', b', rfl⟩

theorem Spec.SameWords.newestIn {c : Flags} {l : Nat} {ws vs : List Word} (h : SameWords c l ws vs) (b : Fin 64) (n : Nat) :
    newestIn vs b n = newestIn ws b n := by
  refine newestIn_congr fun i _ => ?_
  cases hv : vs[i]? with
  | none =>
    have : ws[i]? = none := by
      rw [List.getElem?_eq_none_iff] at hv ⊢
      rw [← h.1]; exact hv
    rw [this]
  | some v =>
    obtain ⟨w, hw, -, h2, -⟩ := h.get hv
    rw [hw, Option.map_some, Option.map_some, h2]

theorem reserve_le {v w : Word} (h : v.action = .core .unmark → w.action = .core .unmark) :
    reserve v ≤ reserve w := by
  unfold reserve
  split
  · rw [if_pos (h ‹_›)]; exact Nat.le_refl _
  · exact Nat.zero_le _

theorem bytesAt_congr {d d' : DataSpace} {a n : Nat}
    (h : ∀ x, a ≤ x → x < a + n → d'.bytes x = d.bytes x) : d'.bytesAt a n = d.bytesAt a n := by
  unfold DataSpace.bytesAt
  refine List.map_congr_left fun i hi => h _ (by omega) ?_
  have := List.mem_range.1 hi
  omega

theorem cellAt_same {d d' : DataSpace} {a : Nat}
    (h : ∀ x, a ≤ x → x < a + 8 → d'.bytes x = d.bytes x) : d'.cellAt a = d.cellAt a := by
  unfold DataSpace.cellAt
  rw [h a (by omega) (by omega), h (a + 1) (by omega) (by omega), h (a + 2) (by omega) (by omega),
    h (a + 3) (by omega) (by omega), h (a + 4) (by omega) (by omega), h (a + 5) (by omega) (by omega),
    h (a + 6) (by omega) (by omega), h (a + 7) (by omega) (by omega)]

theorem nameIn_same {d d' : DataSpace} {v w : Word} (hn : v.nfa = w.nfa)
    (h : ∀ x, w.nfa ≤ x → x < w.nfa + 8 + (d.cellAt w.nfa).toNat → d'.bytes x = d.bytes x) :
    d'.cellAt v.nfa = d.cellAt w.nfa ∧ nameIn d' v = nameIn d w := by
  have h1 : d'.cellAt w.nfa = d.cellAt w.nfa := cellAt_same fun x h1 h2 => h x h1 (by omega)
  rw [nameIn, nameIn, hn, h1]
  exact ⟨rfl, bytesAt_congr fun x h2 h3 => h x (by omega) (by omega)⟩

/-- What is needed of the data space stays, and the words are the same: the dictionary stays in order. -/
theorem Spec.Dict.frame {l : Nat} {s t : VM} (h : Dict s) (hi : Intact s t) (hst : t.ds.start = s.ds.start)
    (hl : t.wl.last = s.wl.last) (hb : t.wl.buckets = s.wl.buckets) (hk : SameWords .any l s.wl.words t.wl.words) :
    Dict t where
  last := by rw [hl, hk.1]; exact h.last
  low i v hv := by
    obtain ⟨w, hw, k1, k2, k3, k4, k5⟩ := hk.get hv
    rw [hst, k3]; exact h.low i w hw
  high i v hv := by
    obtain ⟨w, hw, k1, k2, k3, k4, k5⟩ := hk.get hv
    rw [(nameIn_same k3 (hi i w hw).1).1, k3, k4]
    exact h.high i w hw
  hash i v hv := by
    obtain ⟨w, hw, k1, k2, k3, k4, k5⟩ := hk.get hv
    rw [(nameIn_same k3 (hi i w hw).1).2, k2]
    exact h.hash i w hw
  link i v hv := by
    obtain ⟨w, hw, k1, k2, k3, k4, k5⟩ := hk.get hv
    rw [k1, k2, hk.newestIn]
    exact h.link i w hw
  buckets b := by rw [hb, hk.newestIn, hk.1]; exact h.buckets b
  apart i j v v' hij hv hv' := by
    obtain ⟨w, hw, k1, k2, k3, k4, k5⟩ := hk.get hv
    obtain ⟨w', hw', k1', k2', k3', k4', k5'⟩ := hk.get hv'
    have := h.apart i j w w' hij hw hw'
    have := reserve_le k5
    omega
  top i v hv := by
    obtain ⟨w, hw, k1, k2, k3, k4, k5⟩ := hk.get hv
    have := (hi i w hw).2.2
    have := reserve_le k5
    omega
  marks i v hv ha := by
    obtain ⟨w, hw, k1, k2, k3, k4, k5⟩ := hk.get hv
    obtain ⟨m1, m2, m3⟩ := h.marks i w hw (k5 ha)
    have hm := (hi i w hw).2.1 (k5 ha)
    refine ⟨m1, ?_, fun b => ?_⟩
    · rw [k4, cellAt_same fun x h1 h2 => hm x h1 (by omega)]
      exact m2
    · have := b.isLt
      rw [k4, cellAt_same fun x h1 h2 => hm x (by omega) (by omega), hk.newestIn]
      exact m3 b

theorem Spec.Change.wl {k : Kind} {u v : VM} (hc : Change k u v) (h1 : k ≠ .wordAdd)
    (h2 : k ≠ .wordLast) (h3 : k ≠ .wordForget) (h4 : k ≠ .wordTime) (h5 : k ≠ .savedBuckets) :
    v.wl = u.wl := by
  cases k <;> simp only [Change] at hc
  case wordAdd => exact absurd rfl h1
  case wordLast => exact absurd rfl h2
  case wordForget => exact absurd rfl h3
  case wordTime => exact absurd rfl h4
  case savedBuckets => exact absurd rfl h5
  case sourceOpen => obtain ⟨src, ⟨p, -, rfl⟩ | rfl⟩ := hc <;> rfl
  all_goals
    first
    | (obtain ⟨_, rfl⟩ := hc; rfl)
    | (obtain ⟨_, _, rfl⟩ := hc; rfl)
    | (obtain ⟨_, _, _, rfl⟩ := hc; rfl)
    | (obtain ⟨_, _, _, _, rfl⟩ := hc; rfl)
    | (obtain ⟨_, _, _, _, _, rfl⟩ := hc; rfl)
    | (obtain ⟨_, _, _, _, _, _, rfl⟩ := hc; rfl)
    | (subst hc; rfl)

/-- A change other than to words keeps the words, up to times. -/
theorem Spec.Change.same {k : Kind} {u v : VM} (hc : Change k u v) (h1 : k ≠ .wordAdd)
    (h2 : k ≠ .wordLast) (h3 : k ≠ .wordForget) :
    v.wl.last = u.wl.last ∧ v.wl.buckets = u.wl.buckets ∧ SameWords .same u.wl.last u.wl.words v.wl.words := by
  by_cases h4 : k = .wordTime
  · subst h4
    obtain ⟨f, hf, p, rfl⟩ := hc
    refine ⟨rfl, rfl, List.length_mapIdx, fun i v w hv hw => ?_⟩
    simp only [List.getElem?_mapIdx, hw, Option.map_some, Option.some.injEq] at hv
    subst hv
    split
    · obtain ⟨a, b, e⟩ := hf w
      rw [e]; exact ⟨⟨rfl, rfl, rfl, rfl, .inl rfl⟩, rfl, fun _ => ⟨_, _, rfl⟩⟩
    · exact ⟨⟨rfl, rfl, rfl, rfl, .inl rfl⟩, rfl, fun _ => ⟨_, _, rfl⟩⟩
  by_cases h5 : k = .savedBuckets
  · subst h5
    cases hc
    exact ⟨rfl, rfl, (.refl _ _ _)⟩
  rw [hc.wl h1 h2 h3 h4 h5]
  exact ⟨rfl, rfl, (.refl _ _ _)⟩

theorem Spec.Change.mem {k : Kind} {u v : VM} (hc : Change k u v) (h1 : k ≠ .memWrite)
    (h2 : k ≠ .memHere) : u.ds.here ≤ v.ds.here ∧ ∀ x, x < u.ds.here → v.ds.bytes x = u.ds.bytes x := by
  cases k <;> simp only [Change] at hc
  case memWrite => exact absurd rfl h1
  case memHere => exact absurd rfl h2
  case memAppend =>
    obtain ⟨n, b, hn, hn', hb, rfl⟩ := hc
    refine ⟨?_, fun x hx => hb x (.inl ?_)⟩
    · simp only [DataSpace.here]; omega
    · simpa only [DataSpace.here] using hx
  case sourceOpen => obtain ⟨src, ⟨p, -, rfl⟩ | rfl⟩ := hc <;> exact ⟨Nat.le_refl _, fun _ _ => rfl⟩
  all_goals
    first
    | (obtain ⟨_, rfl⟩ := hc; exact ⟨Nat.le_refl _, fun _ _ => rfl⟩)
    | (obtain ⟨_, _, rfl⟩ := hc; exact ⟨Nat.le_refl _, fun _ _ => rfl⟩)
    | (obtain ⟨_, _, _, rfl⟩ := hc; exact ⟨Nat.le_refl _, fun _ _ => rfl⟩)
    | (obtain ⟨_, _, _, _, rfl⟩ := hc; exact ⟨Nat.le_refl _, fun _ _ => rfl⟩)
    | (obtain ⟨_, _, _, _, _, rfl⟩ := hc; exact ⟨Nat.le_refl _, fun _ _ => rfl⟩)
    | (obtain ⟨_, _, _, _, _, _, rfl⟩ := hc; exact ⟨Nat.le_refl _, fun _ _ => rfl⟩)
    | (subst hc; exact ⟨Nat.le_refl _, fun _ _ => rfl⟩)

/-- Memory below `here` stays, so the dictionary is intact. -/
theorem Spec.Dict.intact {s t : VM} (h : Dict s) (h1 : s.ds.here ≤ t.ds.here)
    (h2 : ∀ x, x < s.ds.here → t.ds.bytes x = s.ds.bytes x) : Intact s t := by
  intro i w hw
  have a1 := h.high i w hw
  have a2 := h.top i w hw
  refine ⟨fun x _ hx => h2 x (by omega), fun ha x _ hx => h2 x ?_, by omega⟩
  have : reserve w = 520 := if_pos ha
  omega

/-- What free changes do to words and memory. -/
theorem Spec.Changes.free {K : List Kind} (hK : ∀ k, k ∈ K → k ∈ freeKinds) {s t : VM} (h : Changes K s t) :
    t.wl.last = s.wl.last ∧ t.wl.buckets = s.wl.buckets ∧ SameWords .same s.wl.last s.wl.words t.wl.words ∧
    s.ds.here ≤ t.ds.here ∧ (∀ x, x < s.ds.here → t.ds.bytes x = s.ds.bytes x) ∧
    t.ds.start = s.ds.start := by
  induction h with
  | refl => exact ⟨rfl, rfl, (.refl _ _ _), Nat.le_refl _, fun _ _ => rfl, rfl⟩
  | @tail u v k _ hk hc ih =>
    obtain ⟨i1, i2, i3, i4, i5, i6⟩ := ih
    have hf := hK k hk
    have n : ∀ k', k' ∉ freeKinds → k ≠ k' := fun k' hn e => hn (e ▸ hf)
    obtain ⟨a1, a2, a3⟩ := hc.same (n _ (by decide)) (n _ (by decide)) (n _ (by decide))
    obtain ⟨b1, b2⟩ := hc.mem (n _ (by decide)) (n _ (by decide))
    exact ⟨a1.trans i1, a2.trans i2, i3.trans (i1 ▸ a3), Nat.le_trans i4 b1,
      fun x hx => (b2 x (by omega)).trans (i5 x hx), (hc.ds).1.trans i6⟩

theorem Spec.Dict.free {K : List Kind} (hK : ∀ k, k ∈ K → k ∈ freeKinds) {s t : VM} (h : Dict s)
    (hc : Changes K s t) : Dict t := by
  obtain ⟨h1, h2, h3, h4, h5, h6⟩ := hc.free hK
  exact h.frame (h.intact h4 h5) h6 h1 h2 (h3.mono (fun _ _ _ => trivial))

/-- What changes other than to words do, if the dictionary is intact at the end. -/
theorem Spec.Dict.written {K : List Kind} (h1 : .wordAdd ∉ K) (h2 : .wordLast ∉ K) (h3 : .wordForget ∉ K)
    {s t : VM} (h : Dict s) (hi : Intact s t) (hc : Changes K s t) : Dict t := by
  have key : t.wl.last = s.wl.last ∧ t.wl.buckets = s.wl.buckets ∧ SameWords .same s.wl.last s.wl.words t.wl.words ∧
      t.ds.start = s.ds.start := by
    clear hi
    induction hc with
    | refl => exact ⟨rfl, rfl, (.refl _ _ _), rfl⟩
    | @tail u v k _ hk hc ih =>
      obtain ⟨i1, i2, i3, i4⟩ := ih
      obtain ⟨a1, a2, a3⟩ := hc.same (fun e => h1 (e ▸ hk)) (fun e => h2 (e ▸ hk)) (fun e => h3 (e ▸ hk))
      exact ⟨a1.trans i1, a2.trans i2, i3.trans (i1 ▸ a3), hc.ds.1.trans i4⟩
  exact h.frame hi key.2.2.2 key.1 key.2.1 (key.2.2.1.mono (fun _ _ _ => trivial))

/-- Changing the flags or the behaviour of a word. -/
theorem sameWords_set {b : Flags} {ws : List Word} {i : Nat} {w w' : Word} (hw : ws[i]? = some w)
    (hb : b.ok w.hidden w'.hidden) (h : w'.link = w.link ∧ w'.hash = w.hash ∧ w'.nfa = w.nfa ∧ w'.dfa = w.dfa ∧
      (w'.action = w.action ∨ w'.action = .core .doesAction)) : SameWords b i ws (ws.set i w') := by
  refine ⟨List.length_set, fun j v u hv hu => ?_⟩
  by_cases e : i = j
  · subst e
    rw [List.getElem?_set_self (List.getElem?_eq_some_iff.1 hw).1] at hv
    rw [hw] at hu
    cases hv; cases hu
    exact ⟨h, hb, fun hn => absurd rfl hn⟩
  · rw [List.getElem?_set_ne e, hu] at hv
    cases hv
    exact ⟨⟨rfl, rfl, rfl, rfl, .inl rfl⟩, b.refl _, fun _ => ⟨_, _, rfl⟩⟩

/-- Adding a word. -/
theorem Spec.Dict.push {s t : VM} {name : List Byte} {w : Word} (h : Dict s)
    (hw : t.wl = { s.wl.push name w with tempBuckets := t.wl.tempBuckets })
    (hst : t.ds.start = s.ds.start)
    (hb : ∀ x, x < s.ds.here → t.ds.bytes x = s.ds.bytes x)
    (h1 : s.ds.here ≤ w.nfa) (h2 : w.nfa + 8 + (t.ds.cellAt w.nfa).toNat ≤ w.dfa)
    (h3 : nameIn t.ds w = name) (h4 : w.dfa + reserve w ≤ t.ds.here)
    (h5 : w.action = .core .unmark → 1 ≤ s.wl.words.length ∧
      t.ds.cellAt w.dfa = toCell (s.wl.words.length - 1) ∧
      ∀ b : Fin 64, t.ds.cellAt (w.dfa + 8 * (b.val + 1)) = toCell (s.wl.buckets b)) : Dict t := by
  have hlen := h.last
  have hh : s.ds.here ≤ t.ds.here := by omega
  have hin := h.intact hh hb
  have hwords : t.wl.words = s.wl.words ++
      [{ w with hash := Wordlist.hash name, link := s.wl.buckets (Wordlist.bucketOf (Wordlist.hash name)) }] := by
    rw [hw]; rfl
  have get : ∀ (i : Nat) v, t.wl.words[i]? = some v →
      (i < s.wl.words.length ∧ s.wl.words[i]? = some v) ∨
      (i = s.wl.words.length ∧ v = { w with hash := Wordlist.hash name, link := s.wl.buckets (Wordlist.bucketOf (Wordlist.hash name)) }) := by
    intro i v hv
    rw [hwords] at hv
    rcases Nat.lt_or_ge i s.wl.words.length with hlt | hge
    · rw [List.getElem?_append_left hlt] at hv
      exact .inl ⟨hlt, hv⟩
    · rw [List.getElem?_append_right hge] at hv
      right
      cases hx : i - s.wl.words.length with
      | zero =>
        rw [hx] at hv
        cases hv
        exact ⟨by omega, rfl⟩
      | succ n =>
        rw [hx] at hv
        cases hv
  have hnew : ∀ b n, n ≤ s.wl.words.length → newestIn t.wl.words b n = newestIn s.wl.words b n := by
    intro b n hn
    rw [hwords, newestIn_append hn]
  refine ⟨?_, ?_, ?_, ?_, ?_, ?_, ?_, ?_, ?_⟩
  · rw [hw]
    simp [Wordlist.push]
  · intro i v hv
    rcases get i v hv with ⟨_, hv'⟩ | ⟨_, rfl⟩
    · rw [hst]; exact h.low i v hv'
    · rw [hst]
      simp only [DataSpace.here] at h1 ⊢
      omega
  · intro i v hv
    rcases get i v hv with ⟨_, hv'⟩ | ⟨_, rfl⟩
    · rw [(nameIn_same rfl (hin i v hv').1).1]; exact h.high i v hv'
    · exact h2
  · intro i v hv
    rcases get i v hv with ⟨_, hv'⟩ | ⟨_, rfl⟩
    · rw [(nameIn_same rfl (hin i v hv').1).2]; exact h.hash i v hv'
    · exact congrArg Wordlist.hash h3.symm
  · intro i v hv
    rcases get i v hv with ⟨hlt, hv'⟩ | ⟨rfl, rfl⟩
    · rw [hnew _ _ (by omega)]; exact h.link i v hv'
    · rw [hnew _ _ (Nat.le_refl _)]; exact h.buckets _
  · intro b
    have : t.wl.words.length = s.wl.words.length + 1 := by rw [hwords]; simp
    rw [this]
    unfold newestIn
    have hg : t.wl.words[s.wl.words.length]? = some { w with hash := Wordlist.hash name, link := s.wl.buckets (Wordlist.bucketOf (Wordlist.hash name)) } := by
      rw [hwords]; simp
    rw [hg]
    simp only
    rw [hnew _ _ (Nat.le_refl _), ← h.buckets b, hw]
    simp only [Wordlist.push]
    by_cases e : b = Wordlist.bucketOf (Wordlist.hash name)
    · rw [if_pos e, if_pos e.symm]
    · rw [if_neg e, if_neg (fun e' => e e'.symm)]
  · intro i j v v' hij hv hv'
    rcases get j v' hv' with ⟨hlt, hv1⟩ | ⟨rfl, rfl⟩
    · rcases get i v hv with ⟨_, hv2⟩ | ⟨rfl, rfl⟩
      · exact h.apart i j v v' hij hv2 hv1
      · omega
    · rcases get i v hv with ⟨_, hv2⟩ | ⟨rfl, rfl⟩
      · have := h.top i v hv2
        simp only
        omega
      · omega
  · intro i v hv
    rcases get i v hv with ⟨_, hv'⟩ | ⟨_, rfl⟩
    · have := h.top i v hv'; omega
    · exact h4
  · intro i v hv ha
    rcases get i v hv with ⟨hlt, hv'⟩ | ⟨rfl, rfl⟩
    · obtain ⟨m1, m2, m3⟩ := h.marks i v hv' ha
      have hm := (hin i v hv').2.1 ha
      refine ⟨m1, ?_, fun b => ?_⟩
      · rw [cellAt_same fun x h1 h2 => hm x h1 (by omega)]
        exact m2
      · have := b.isLt
        rw [cellAt_same fun x h1 h2 => hm x (by omega) (by omega), hnew _ _ (by omega)]
        exact m3 b
    · obtain ⟨m0, m1, m2⟩ := h5 ha
      refine ⟨m0, m1, fun b => ?_⟩
      rw [hnew _ _ (Nat.le_refl _), ← h.buckets b]
      exact m2 b

/-- Forgetting the words from `k` on. -/
theorem Spec.Dict.take {s t : VM} {k : Nat} (h : Dict s) (hkl : k ≤ s.wl.words.length)
    (hw : t.wl.words = s.wl.words.take k) (hl : t.wl.last + 1 = k)
    (hb : ∀ b, t.wl.buckets b = newestIn s.wl.words b k)
    (hst : t.ds.start = s.ds.start) (hby : t.ds.bytes = s.ds.bytes)
    (htop : ∀ (i : Nat) w, i < k → s.wl.words[i]? = some w → w.dfa + reserve w ≤ t.ds.here) : Dict t := by
  have get : ∀ (i : Nat) v, t.wl.words[i]? = some v → i < k ∧ s.wl.words[i]? = some v := by
    intro i v hv
    rw [hw] at hv
    rcases Nat.lt_or_ge i k with hlt | hge
    · rw [List.getElem?_take_of_lt hlt] at hv; exact ⟨hlt, hv⟩
    · rw [List.getElem?_take_eq_none hge] at hv; cases hv
  have hlen : t.wl.words.length = k := by rw [hw, List.length_take]; omega
  have hnew : ∀ b n, n ≤ k → newestIn t.wl.words b n = newestIn s.wl.words b n := by
    intro b n hn; rw [hw, newestIn_take hn]
  have hc : ∀ a, t.ds.cellAt a = s.ds.cellAt a := fun a => cellAt_same fun x _ _ => by rw [hby]
  refine ⟨by omega, ?_, ?_, ?_, ?_, ?_, ?_, ?_, ?_⟩
  · intro i v hv; rw [hst]; exact h.low i v (get i v hv).2
  · intro i v hv; rw [hc]; exact h.high i v (get i v hv).2
  · intro i v hv
    rw [(nameIn_same (d := s.ds) (w := v) rfl fun x _ _ => by rw [hby]).2]
    exact h.hash i v (get i v hv).2
  · intro i v hv
    obtain ⟨h1, h2⟩ := get i v hv
    rw [hnew _ _ (by omega)]; exact h.link i v h2
  · intro b; rw [hlen, hnew _ _ (Nat.le_refl _)]; exact hb b
  · intro i j v v' hij hv hv'
    exact h.apart i j v v' hij (get i v hv).2 (get j v' hv').2
  · intro i v hv; exact htop i v (get i v hv).1 (get i v hv).2
  · intro i v hv ha
    obtain ⟨h1, h2⟩ := get i v hv
    obtain ⟨m1, m2, m3⟩ := h.marks i v h2 ha
    exact ⟨m1, by rw [hc]; exact m2, fun b => by rw [hc, hnew _ _ (by omega)]; exact m3 b⟩

end Verif
