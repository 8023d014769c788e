import Verif.Lemmas.Outline

/-!
# Character codes and text
-/

namespace Verif
open Spec

/-- The text with the given codes. -/
def spelt (l : List Nat) : List Char := l.map Char.ofNat

/-- All codes are ASCII. -/
def Ascii (l : List Nat) : Prop := ∀ c ∈ l, c < 128

theorem Ascii.tail {c : Nat} {l : List Nat} (h : Ascii (c :: l)) : Ascii l := fun x hx => h x (List.mem_cons_of_mem _ hx)
theorem Ascii.head {c : Nat} {l : List Nat} (h : Ascii (c :: l)) : c < 128 := h c List.mem_cons_self
theorem Ascii.left {k l : List Nat} (h : Ascii (k ++ l)) : Ascii k := fun x hx => h x (List.mem_append_left _ hx)
theorem Ascii.right {k l : List Nat} (h : Ascii (k ++ l)) : Ascii l := fun x hx => h x (List.mem_append_right _ hx)

theorem spelt_append (k l : List Nat) : spelt (k ++ l) = spelt k ++ spelt l := List.map_append

theorem ofNat_toNat : ∀ c, c < 128 → (Char.ofNat c).toNat = c := by decide +kernel
theorem ofNat_lower : ∀ c, c < 128 → lowerChar (Char.ofNat c) = Char.ofNat (lowerCode c) := by decide +kernel
theorem lowerCode_small : ∀ c, c < 128 → lowerCode c < 128 := by decide +kernel
theorem lowerCode_twice : ∀ c, c < 256 → lowerCode (lowerCode c) = lowerCode c := by decide +kernel
theorem lowerCode_small' : ∀ c, c < 256 → lowerCode c < 256 := by decide +kernel
theorem ofNat_utf8 : ∀ c, c < 128 → utf8Char (Char.ofNat c) = [BitVec.ofNat 8 c] := by decide +kernel
theorem ofNat_blank : ∀ c, c < 128 → (isBlank c = true ↔ Blank (Char.ofNat c)) := by decide +kernel

theorem utf8_spelt : ∀ {l : List Nat}, Ascii l → utf8 (spelt l) = l.map (BitVec.ofNat 8)
  | [], _ => rfl
  | c :: l, h => by
    have := utf8_spelt h.tail
    simp only [utf8, spelt, List.map_cons, List.flatMap_cons] at this ⊢
    rw [this, ofNat_utf8 c h.head]; rfl

theorem codesOf_utf8 {l : List Nat} (h : Ascii l) : codesOf (utf8 (spelt l)) = l := by
  rw [utf8_spelt h, codesOf, List.map_map]
  conv => rhs; rw [← List.map_id l]
  refine List.map_congr_left fun c hc => ?_
  have := h c hc
  show (BitVec.ofNat 8 c).toNat = c
  rw [BitVec.toNat_ofNat]; omega

theorem lower_spelt : ∀ {l : List Nat}, Ascii l → (spelt l).map lowerChar = spelt (l.map lowerCode)
  | [], _ => rfl
  | c :: l, h => by
    have := lower_spelt h.tail
    simp only [spelt, List.map_cons] at this ⊢
    rw [this, ofNat_lower c h.head]

theorem ascii_lower {l : List Nat} (h : Ascii l) : Ascii (l.map lowerCode) := by
  intro c hc
  obtain ⟨b, hb, rfl⟩ := List.mem_map.1 hc
  exact lowerCode_small b (h b hb)

/-! ### Names -/

theorem keyOf_eq : ∀ (l : List Nat) (k : Nat), keyOf l k = (l.map lowerCode).foldl (fun k c => k * 256 + c + 1) k
  | [], _ => rfl
  | c :: l, k => by rw [keyOf, keyOf_eq l]; rfl

theorem keyOf_snoc (l : List Nat) (c k : Nat) : keyOf (l ++ [c]) k = keyOf l k * 256 + lowerCode c + 1 := by
  simp [keyOf_eq]

theorem keyOf_pos : ∀ {l : List Nat}, l ≠ [] → 0 < keyOf l 0 := by
  intro l h
  obtain ⟨l', c, rfl⟩ : ∃ l' c, l = l' ++ [c] := ⟨l.dropLast, l.getLast h, (List.dropLast_concat_getLast h).symm⟩
  rw [keyOf_snoc]; omega

theorem keyOf_inj : ∀ (n : Nat) {a b : List Nat}, a.length ≤ n → (∀ c ∈ a, c < 256) → (∀ c ∈ b, c < 256) →
    keyOf a 0 = keyOf b 0 → a.map lowerCode = b.map lowerCode
  | n, a, b => by
    intro hn ha hb h
    by_cases h1 : a = []
    · subst h1
      by_cases h2 : b = []
      · rw [h2]
      · have := keyOf_pos h2
        rw [← h] at this
        exact absurd this (by simp [keyOf])
    · by_cases h2 : b = []
      · subst h2
        have := keyOf_pos h1
        rw [h] at this
        exact absurd this (by simp [keyOf])
      · obtain ⟨a', c, rfl⟩ : ∃ l' c, a = l' ++ [c] := ⟨a.dropLast, a.getLast h1, (List.dropLast_concat_getLast h1).symm⟩
        obtain ⟨b', d, rfl⟩ : ∃ l' c, b = l' ++ [c] := ⟨b.dropLast, b.getLast h2, (List.dropLast_concat_getLast h2).symm⟩
        rw [keyOf_snoc, keyOf_snoc] at h
        have hc := lowerCode_small' c (ha c (by simp))
        have hd := lowerCode_small' d (hb d (by simp))
        have e1 : keyOf a' 0 = keyOf b' 0 := by omega
        have e2 : lowerCode c = lowerCode d := by omega
        cases n with
        | zero => simp at hn
        | succ n =>
          have := keyOf_inj n (a := a') (b := b') (by simp at hn; omega) (fun x hx => ha x (by simp [hx])) (fun x hx => hb x (by simp [hx])) e1
          simp [this, e2]

theorem sameLetter_iff (a b : Byte) : SameLetter a b ↔ lowerCode a.toNat = lowerCode b.toNat := by
  have ha := a.isLt; have hb := b.isLt
  have e : a = b ↔ a.toNat = b.toNat := BitVec.toNat_inj.symm
  simp only [SameLetter, lowerCode, e]
  split <;> split <;> omega

theorem sameName_key (a b : List Byte) : SameName a b ↔ keyOf (codesOf a) 0 = keyOf (codesOf b) 0 := by
  have hlt : ∀ a : List Byte, ∀ c ∈ codesOf a, c < 256 := by
    intro a c hc
    obtain ⟨x, -, rfl⟩ := List.mem_map.1 hc
    exact x.isLt
  have : SameName a b ↔ (codesOf a).map lowerCode = (codesOf b).map lowerCode := by
    simp only [codesOf, List.map_map]
    constructor
    · rintro ⟨h1, h2⟩
      refine List.ext_getElem (by simp [h1]) fun i h3 h4 => ?_
      simp only [List.length_map] at h3 h4
      simp only [List.getElem_map, Function.comp]
      exact (sameLetter_iff _ _).1 (h2 i _ _ (List.getElem?_eq_getElem h3) (List.getElem?_eq_getElem h4))
    · intro h
      have hl : a.length = b.length := by simpa using congrArg List.length h
      refine ⟨hl, fun i x y hx hy => ?_⟩
      have := congrArg (fun l => l[i]?) h
      simp only [List.getElem?_map, hx, hy, Option.map_some, Option.some.injEq, Function.comp] at this
      exact (sameLetter_iff _ _).2 this
  rw [this]
  exact ⟨fun h => by rw [keyOf_eq, keyOf_eq, h], keyOf_inj _ (Nat.le_refl _) (hlt a) (hlt b)⟩

/-- The key of the name a token stands for. -/
theorem key_token {l : List Nat} (h : Ascii l) : keyOf (codesOf (utf8 (spelt l))) 0 = keyOf l 0 := by rw [codesOf_utf8 h]

theorem key_lower {l : List Nat} (h : Ascii l) : keyOf (codesOf (utf8 ((spelt l).map lowerChar))) 0 = keyOf l 0 := by
  rw [lower_spelt h, codesOf_utf8 (ascii_lower h), keyOf_eq, keyOf_eq, List.map_map]
  congr 1
  exact List.map_congr_left fun c hc => lowerCode_twice c (Nat.lt_trans (h c hc) (by decide))

theorem length_lower {l : List Nat} (h : Ascii l) : (utf8 ((spelt l).map lowerChar)).length = l.length := by
  rw [lower_spelt h, utf8_spelt (ascii_lower h)]; simp

/-! ### Tokens -/

theorem skipBlanks_spec : ∀ l, ∃ bs, l = bs ++ skipBlanks l ∧ ∀ c ∈ bs, isBlank c = true
  | [] => ⟨[], rfl, by simp⟩
  | c :: r => by
    obtain ⟨bs, h1, h2⟩ := skipBlanks_spec r
    rw [skipBlanks]
    split
    · rename_i h
      exact ⟨c :: bs, by rw [List.cons_append, ← h1], by simpa using ⟨h, h2⟩⟩
    · exact ⟨[], rfl, by simp⟩

theorem upToBlank_spec : ∀ (acc l : List Nat), ∃ t, (upToBlank acc l).1 = acc.reverse ++ t ∧ l = t ++ (upToBlank acc l).2 ∧
    (∀ c ∈ t, isBlank c = false) ∧ (∀ c cs, (upToBlank acc l).2 = c :: cs → isBlank c = true)
  | acc, [] => ⟨[], by simp [upToBlank]⟩
  | acc, c :: r => by
    rw [upToBlank]
    split
    · rename_i h
      exact ⟨[], by simp, rfl, by simp, by rintro c' cs ⟨⟩; exact h⟩
    · rename_i h
      obtain ⟨t, h1, h2, h3, h4⟩ := upToBlank_spec (c :: acc) r
      exact ⟨c :: t, by rw [h1]; simp, by rw [List.cons_append, ← h2], by simpa using ⟨by simpa using h, h3⟩, h4⟩

theorem readTok_spec (l : List Nat) : ∃ bs, l = bs ++ ((readTok l).1 ++ (readTok l).2) ∧ (∀ c ∈ bs, isBlank c = true) ∧
    (∀ c ∈ (readTok l).1, isBlank c = false) ∧ (∀ c cs, (readTok l).2 = c :: cs → isBlank c = true) := by
  obtain ⟨bs, h1, h2⟩ := skipBlanks_spec l
  obtain ⟨t, h3, h4, h5, h6⟩ := upToBlank_spec [] (skipBlanks l)
  have e : (readTok l).1 = t := h3
  refine ⟨bs, ?_, h2, by rw [e]; exact h5, h6⟩
  rw [e]
  conv => lhs; rw [h1]
  congr 1

theorem ascii_readTok {l : List Nat} (h : Ascii l) : Ascii (readTok l).1 ∧ Ascii (readTok l).2 := by
  obtain ⟨bs, h1, -⟩ := readTok_spec l
  rw [h1] at h
  exact ⟨h.right.left, h.right.right⟩

/-- The next token, with the blanks before it. -/
theorem readTok_parts {l : List Nat} (h : Ascii l) : ∃ bs, spelt l = bs ++ (spelt (readTok l).1 ++ spelt (readTok l).2) ∧
    (∀ ch ∈ bs, Blank ch) ∧ (∀ ch ∈ spelt (readTok l).1, ¬ Blank ch) ∧ EndsToken (spelt (readTok l).2) := by
  obtain ⟨a1, a2⟩ := ascii_readTok h
  obtain ⟨bs, h1, h2, h3, h4⟩ := readTok_spec l
  have hb : Ascii bs := by rw [h1] at h; exact h.left
  refine ⟨spelt bs, ?_, ?_, ?_, ?_⟩
  · conv => lhs; rw [h1]
    rw [spelt_append, spelt_append]
  · intro ch hc
    obtain ⟨c, hc', rfl⟩ := List.mem_map.1 hc
    exact (ofNat_blank c (hb c hc')).1 (h2 c hc')
  · intro ch hc hbl
    obtain ⟨c, hc', rfl⟩ := List.mem_map.1 hc
    have := h3 c hc'
    rw [(ofNat_blank c (a1 c hc')).2 hbl] at this
    simp at this
  · intro ch cs e
    cases hr : (readTok l).2 with
    | nil => rw [hr] at e; simp [spelt] at e
    | cons c r =>
      rw [hr] at e a2
      simp only [spelt, List.map_cons, List.cons.injEq] at e
      rw [← e.1]
      exact (ofNat_blank c a2.head).1 (h4 c r hr)

theorem readTok_reads {l : List Nat} (h : Ascii l) {c : Nat} {t : List Nat} (he : (readTok l).1 = c :: t) :
    Reads (spelt l) (spelt (c :: t)) (spelt (readTok l).2) := by
  obtain ⟨bs, h1, h2, h3, h4⟩ := readTok_parts h
  rw [he] at h1 h3
  exact ⟨bs, h1, h2, by simp [spelt], h3, h4⟩

theorem skipPast_suffix : ∀ (d : Nat) {l : List Nat}, Ascii l → Ascii (skipPast d l)
  | _, [], h => h
  | d, c :: r, h => by
    rw [skipPast]
    split
    · exact h.tail
    · exact skipPast_suffix d h.tail

theorem skipPast_spec {d : Nat} (hd : d < 128) : ∀ {l : List Nat}, Ascii l →
    ∃ taken found, Delimited (BitVec.ofNat 64 d) (spelt l) taken (spelt (skipPast d l)) found
  | [], _ => ⟨[], false, by simp, by simp [spelt, skipPast]⟩
  | c :: r, h => by
    have hc := h.head
    rw [skipPast]
    split
    · rename_i he
      have he : c = d := Nat.eq_of_beq_eq_true he
      subst he
      refine ⟨[], true, by simp, ?_⟩
      simp only [if_true, List.nil_append]
      exact ⟨Char.ofNat c, by rw [ofNat_toNat c hc], rfl⟩
    · rename_i he
      obtain ⟨taken, found, h1, h2⟩ := skipPast_spec hd h.tail
      refine ⟨Char.ofNat c :: taken, found, ?_, ?_⟩
      · intro ch hch
        rcases List.mem_cons.1 hch with rfl | hch
        · rw [ofNat_toNat c hc]
          intro e
          have := congrArg BitVec.toNat e
          rw [BitVec.toNat_ofNat, BitVec.toNat_ofNat] at this
          have e : c = d := by omega
          rw [e] at he
          simp at he
        · exact h1 ch hch
      · cases found with
        | true =>
          simp only [if_true] at h2 ⊢
          obtain ⟨x, h3, h4⟩ := h2
          exact ⟨x, h3, by rw [List.cons_append, ← h4]; rfl⟩
        | false =>
          simp only [Bool.false_eq_true, if_false] at h2 ⊢
          exact ⟨by rw [← h2.1]; rfl, h2.2⟩

theorem upToQuote_spec : ∀ (acc : List Nat) {l cs rest : List Nat}, upToQuote acc l = some (cs, rest) →
    ∃ t, cs = acc.reverse ++ t ∧ l = t ++ 34 :: rest ∧ 34 ∉ t
  | _, [], _, _, h => by cases h
  | acc, c :: r, cs, rest, h => by
    rw [upToQuote] at h
    split at h
    · rename_i e
      cases h
      exact ⟨[], by simp, by rw [Nat.eq_of_beq_eq_true e]; rfl, by simp⟩
    · rename_i e
      obtain ⟨t, h1, h2, h3⟩ := upToQuote_spec (c :: acc) h
      refine ⟨c :: t, by rw [h1]; simp, by rw [h2]; rfl, ?_⟩
      simp only [List.mem_cons, not_or]
      exact ⟨fun e' => e (by rw [← e']; rfl), h3⟩

theorem ofNat_quote : ∀ c, c < 128 → Char.ofNat c = '"' → c = 34 := by decide +kernel

/-! ### Numbers -/

theorem isDigit_decimal : ∀ c, c < 128 → (Nat.ble 48 c && Nat.ble c 57) = true → IsDigit (BitVec.ofNat 8 c) (c - 48) := by
  unfold IsDigit lowerDigits upperDigits
  decide +kernel

theorem digitString_of : ∀ {l : List Nat}, Ascii l → digitsOnly l = true →
    DigitString (l.map (BitVec.ofNat 8)) (l.map (· - 48)) ∧ ∀ d ∈ l.map (· - 48), d < 10
  | [], _, _ => ⟨.nil, by simp⟩
  | c :: r, h, hd => by
    simp only [digitsOnly] at hd
    have hd' : (Nat.ble 48 c && Nat.ble c 57) = true ∧ digitsOnly r = true := by
      cases h1 : (Nat.ble 48 c && Nat.ble c 57) <;> simp_all
    obtain ⟨h1, h2⟩ := digitString_of h.tail hd'.2
    refine ⟨.cons (isDigit_decimal c h.head hd'.1) h1, ?_⟩
    simp only [List.map_cons, List.mem_cons, forall_eq_or_imp]
    refine ⟨?_, h2⟩
    have := hd'.1
    simp only [Bool.and_eq_true, Nat.ble_eq] at this
    omega

theorem decimalOf_eq (l : List Nat) : ∀ acc : Nat,
    Int.ofNat (decimalOf acc l) = Int.ofNat acc * (10 : Int) ^ l.length + placeValue 10 (l.map (· - 48)) := by
  induction l with
  | nil =>
    intro acc
    show Int.ofNat acc = Int.ofNat acc * 10 ^ 0 + 0
    simp only [Int.pow_zero, Int.mul_one, Int.add_zero]
  | cons c r ih =>
    intro acc
    have e : decimalOf acc (c :: r) = decimalOf (acc * 10 + (c - 48)) r := rfl
    rw [e, ih]
    simp only [List.map_cons, placeValue, List.length_cons, List.length_map]
    rw [Int.pow_succ]
    generalize (10 : Int) ^ r.length = x
    generalize placeValue 10 (List.map (fun x => x - 48) r) = y
    have e2 : Int.ofNat (acc * 10 + (c - 48)) = Int.ofNat acc * 10 + Int.ofNat (c - 48) := by
      show ((acc * 10 + (c - 48) : Nat) : Int) = (acc : Int) * 10 + ((c - 48 : Nat) : Int)
      omega
    rw [e2, Int.add_mul, Int.add_assoc, Int.mul_assoc, Int.mul_comm 10 x]
    rfl

theorem numberOf_token {l : List Nat} (h : Ascii l) {n : Nat} (hn : numberOf l = some n) :
    IntegerToken 10 (utf8 (spelt l)) (BitVec.ofNat 64 n) := by
  rw [utf8_spelt h]
  unfold numberOf at hn
  split at hn
  · rename_i hd
    obtain ⟨h1, h2⟩ := digitString_of h hd
    have := IntegerToken.digits (default := 10) (pre := []) (sg := []) .none .none h1 (fun d hd => by have := h2 d hd; omega)
    simp only [List.nil_append, Int.one_mul] at this
    have e := decimalOf_eq l 0
    cases hn
    have : wrap (placeValue 10 (l.map (· - 48))) = BitVec.ofNat 64 (decimalOf 0 l) := by
      rw [wrap, ← BitVec.ofInt_natCast]
      congr 1
      simpa using e.symm
    rw [← this]
    assumption
  · split at hn
    · rename_i hl
      subst hl
      cases hn
      have h1 : DigitString [55, 102] [7, 15] := .cons (.inl (by decide +kernel)) (.cons (.inl (by decide +kernel)) .nil)
      exact IntegerToken.digits (default := 10) .hex .none h1 (by decide)
    · split at hn
      · rename_i hl
        subst hl
        cases hn
        have h1 : DigitString [50] [2] := .cons (.inl (by decide +kernel)) .nil
        exact IntegerToken.digits (default := 10) .none .minus h1 (by decide)
      · simp at hn

/-- `0e` -/
def zeroFloat (f : FloatOps) : F64 := f.mul (f.mul (f.ofInt 1) (f.add (f.ofInt 0) 0)) (f.pow10 0)

theorem zero_float (f : FloatOps) : FloatToken f (utf8 (spelt [48, 101])) (zeroFloat f) := by
  have h1 : DecimalString [48] [0] := ⟨.cons (.inl (by decide +kernel)) .nil, by decide⟩
  have h2 : DecimalString [] [] := ⟨.nil, by simp⟩
  exact FloatToken.mk (f := f) (sg := []) (esg := []) (e := 101) .none h1 (by simp) (by decide) .none (.inr rfl) .none h2 (by decide)

theorem zero_not_integer (n : Cell) : ¬ IntegerToken 10 (utf8 (spelt [48, 101])) n := by
  rw [show utf8 (spelt [48, 101]) = [48, 101] from by decide +kernel]
  intro h
  generalize hl : ([48, 101] : List Byte) = l at h
  cases h with
  | quoted b => simp at hl
  | @digits pre sg bs base sign ds h1 h2 h3 h4 =>
    cases h1 <;> cases h2 <;> simp at hl
    subst hl
    cases h3 with
    | cons a1 a2 =>
      cases a2 with
      | @cons b d bs ds b1 b2 =>
        have : d < 10 := by have := h4 d (by simp); omega
        exact absurd b1 ((by unfold IsDigit; decide +kernel : ∀ d, d < 10 → ¬ IsDigit 101 d) d this)

end Verif
