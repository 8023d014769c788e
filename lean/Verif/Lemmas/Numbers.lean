import Verif.Spec.Numbers
import Verif.Lemmas.Effects
import Verif.Model.Boot

/-!
# The number parser against the grammars
-/

namespace Verif
open Spec Parser

theorem wrap_add' (x y : Int) : wrap (x + y) = wrap x + wrap y := by simp [wrap, BitVec.ofInt_add]
theorem wrap_mul' (x y : Int) : wrap (x * y) = wrap x * wrap y := by simp [wrap, BitVec.ofInt_mul]
theorem wrap_natCast (n : Nat) : wrap (n : Int) = BitVec.ofNat 64 n := by
  simp [wrap, BitVec.ofInt_natCast]

/-- The digit test of the parser is the digit table. -/
theorem digit_iff (b : Byte) (d : Nat) : digit b = some d ↔ IsDigit b d := by
  have h1 : ∀ b : BitVec 8, ∀ d : Fin 16, digit b = some d.val ↔
      (lowerDigits[d.val]? = some b ∨ upperDigits[d.val]? = some b) := by decide +kernel
  by_cases hd : d < 16
  · exact h1 b ⟨d, hd⟩
  · constructor
    · intro h
      exfalso
      simp only [digit] at h
      split at h
      · simp at h; omega
      · split at h
        · simp at h; omega
        · split at h
          · simp at h; omega
          · simp at h
    · intro h
      exfalso
      have e1 : lowerDigits[d]? = none := List.getElem?_eq_none (by
        show 16 ≤ d; omega)
      have e2 : upperDigits[d]? = none := List.getElem?_eq_none (by
        show 16 ≤ d; omega)
      rcases h with h | h
      · rw [e1] at h; simp at h
      · rw [e2] at h; simp at h

theorem digitString_length {bs : List Byte} {ds : List Nat} (h : DigitString bs ds) :
    bs.length = ds.length := by
  induction h with
  | nil => rfl
  | cons _ _ ih => simp [ih]

theorem digitString_unique {bs : List Byte} {ds ds' : List Nat} (h : DigitString bs ds)
    (h' : DigitString bs ds') : ds = ds' := by
  induction h generalizing ds' with
  | nil => cases h'; rfl
  | cons h1 _ ih =>
    cases h' with
    | cons h1' h2' =>
      rw [ih h2']
      have e1 := (digit_iff _ _).2 h1
      have e2 := (digit_iff _ _).2 h1'
      rw [e1] at e2
      simp only [Option.some.injEq] at e2
      rw [e2]

/-- The accumulating loop computes the place value, modulo 2^64. -/
theorem uintInBase_iff (base : Cell) (bs : List Byte) : ∀ (v r : Cell),
    uintInBase base bs v = some r ↔ ∃ ds, DigitString bs ds ∧ (∀ d ∈ ds, (d : Int) < base.toInt) ∧
      r = v * wrap (base.toInt ^ ds.length) + wrap (placeValue base.toInt ds) := by
  induction bs with
  | nil =>
    intro v r
    simp only [uintInBase, Option.some.injEq]
    constructor
    · rintro rfl
      exact ⟨[], .nil, by simp, by simp [placeValue, wrap]⟩
    · rintro ⟨ds, h, _, rfl⟩
      cases h
      simp [placeValue, wrap]
  | cons b bs ih =>
    intro v r
    simp only [uintInBase]
    constructor
    · intro h
      cases hd : digit b with
      | none => rw [hd] at h; simp at h
      | some d =>
        rw [hd] at h
        simp only at h
        split at h
        · simp at h
        · next hlt =>
          obtain ⟨ds, h1, h2, h3⟩ := (ih _ _).1 h
          refine ⟨d :: ds, .cons ((digit_iff b d).1 hd) h1, ?_, ?_⟩
          · intro x hx
            simp only [List.mem_cons] at hx
            rcases hx with rfl | hx
            · omega
            · exact h2 x hx
          · rw [h3, List.length_cons, placeValue, Int.pow_succ, wrap_add', wrap_mul', wrap_mul',
              wrap_toInt, wrap_natCast, BitVec.add_mul, BitVec.mul_assoc, BitVec.add_assoc]
            congr 2
            rw [BitVec.mul_comm]
    · rintro ⟨ds, h1, h2, h3⟩
      cases h1 with
      | cons hd hs =>
        next d ds =>
        rw [(digit_iff b d).2 hd]
        have hlt := h2 d (by simp)
        simp only
        rw [if_neg (by omega), ih]
        refine ⟨ds, hs, fun x hx => h2 x (by simp [hx]), ?_⟩
        rw [h3, List.length_cons, placeValue, Int.pow_succ, wrap_add', wrap_mul', wrap_mul',
          wrap_toInt, wrap_natCast, BitVec.add_mul, BitVec.mul_assoc, BitVec.add_assoc]
        congr 2
        rw [BitVec.mul_comm]

theorem isDigit_ne {b : Byte} {d : Nat} (h : IsDigit b d) :
    b ≠ 37 ∧ b ≠ 35 ∧ b ≠ 36 ∧ b ≠ 43 ∧ b ≠ 45 ∧ b ≠ 39 ∧ b ≠ 46 := by
  have h' := (digit_iff b d).2 h
  refine ⟨?_, ?_, ?_, ?_, ?_, ?_, ?_⟩ <;> rintro rfl <;> simp [digit] at h'

theorem digitString_head {b : Byte} {bs : List Byte} {ds : List Nat} (h : DigitString (b :: bs) ds) :
    ∃ d, IsDigit b d := by cases h; exact ⟨_, by assumption⟩

/-- The sign test on a text that begins with the given sign and continues with digits. -/
theorem sign_of {sg bs : List Byte} {σ : Int} (h : SignPrefix sg σ)
    (hb : ∀ b rest, bs = b :: rest → b ≠ 43 ∧ b ≠ 45) : sign (sg ++ bs) = (bs, wrap σ) := by
  cases h with
  | none =>
    cases bs with
    | nil => rfl
    | cons b bs =>
      have := hb b bs rfl
      simp only [List.nil_append, sign, if_neg this.1, if_neg this.2]; rfl
  | plus => simp [sign, wrap]
  | minus => simp [sign, wrap]

theorem sign_split (bs : List Byte) : ∃ sg σ, SignPrefix sg σ ∧ bs = sg ++ (sign bs).1 ∧
    (sign bs).2 = wrap σ := by
  match bs with
  | [] => exact ⟨[], 1, .none, rfl, rfl⟩
  | b :: bs =>
    by_cases h1 : b = 43
    · subst h1; exact ⟨[43], 1, .plus, rfl, rfl⟩
    · by_cases h2 : b = 45
      · subst h2; exact ⟨[45], -1, .minus, rfl, rfl⟩
      · exact ⟨[], 1, .none, by simp only [List.nil_append, sign, if_neg h1, if_neg h2],
          by simp only [sign, if_neg h1, if_neg h2]; rfl⟩

theorem base_of {pre bs : List Byte} {b : Int} {dflt : Cell} (h : BasePrefix dflt.toInt pre b)
    (hb : ∀ x rest, bs = x :: rest → x ≠ 37 ∧ x ≠ 35 ∧ x ≠ 36) :
    ∃ bc : Cell, base (pre ++ bs) dflt = (bs, bc) ∧ bc.toInt = b := by
  cases h with
  | none =>
    refine ⟨dflt, ?_, rfl⟩
    cases bs with
    | nil => rfl
    | cons x bs =>
      have := hb x bs rfl
      simp only [List.nil_append, base, if_neg this.1, if_neg this.2.1, if_neg this.2.2]
  | binary => exact ⟨2, by simp [base], by decide⟩
  | decimal => exact ⟨10, by simp [base], by decide⟩
  | hex => exact ⟨16, by simp [base], by decide⟩

theorem base_split (bs : List Byte) (dflt : Cell) : ∃ pre,
    BasePrefix dflt.toInt pre (base bs dflt).2.toInt ∧ bs = pre ++ (base bs dflt).1 := by
  match bs with
  | [] => exact ⟨[], .none, rfl⟩
  | b :: bs =>
    by_cases h1 : b = 37
    · subst h1; exact ⟨[37], .binary, rfl⟩
    · by_cases h2 : b = 35
      · subst h2; exact ⟨[35], .decimal, rfl⟩
      · by_cases h3 : b = 36
        · subst h3; exact ⟨[36], .hex, rfl⟩
        · exact ⟨[], by simp only [base, h1, h2, h3, if_false]; exact .none,
            by simp only [List.nil_append, base, if_neg h1, if_neg h2, if_neg h3]⟩

theorem quotedChar_iff (bs : List Byte) (v : Cell) :
    quotedChar bs = some v ↔ ∃ b : Byte, bs = [39, b, 39] ∧ v = BitVec.ofNat 64 b.toNat := by
  constructor
  · intro h
    match bs, h with
    | [a, b, c], h =>
      simp only [quotedChar] at h
      split at h
      · next hc =>
        simp only [Option.some.injEq] at h
        refine ⟨b, by rw [hc.1, hc.2], ?_⟩
        rw [← h]; apply BitVec.eq_of_toNat_eq; simp
      · simp at h
  · rintro ⟨b, rfl, rfl⟩
    simp only [quotedChar, and_self, if_true, Option.some.injEq]
    apply BitVec.eq_of_toNat_eq; simp

/-- `evaluate_integer` accepts exactly the integer tokens. -/
theorem integerValue_iff (dflt : Cell) (tok : List Byte) (v : Cell) :
    integerValue dflt tok = some v ↔ IntegerToken dflt.toInt tok v := by
  simp only [integerValue]
  constructor
  · intro h
    cases hq : quotedChar tok with
    | some w =>
      rw [hq] at h
      simp only [Option.some.injEq] at h
      obtain ⟨b, rfl, rfl⟩ := (quotedChar_iff tok w).1 hq
      exact h ▸ .quoted b
    | none =>
      rw [hq] at h
      simp only at h
      obtain ⟨pre, hp, ht⟩ := base_split tok dflt
      obtain ⟨sg, σ, hs, ht2, hσ⟩ := sign_split (base tok dflt).1
      cases hu : uintInBase (base tok dflt).2 (sign (base tok dflt).1).1 0 with
      | none => rw [hu] at h; simp at h
      | some r =>
        rw [hu] at h
        simp only [Option.some.injEq] at h
        obtain ⟨ds, d1, d2, d3⟩ := (uintInBase_iff _ _ _ _).1 hu
        rw [ht, ht2, ← List.append_assoc, ← h, hσ, d3]
        have e : (wrap σ * (0 * wrap ((base tok dflt).2.toInt ^ ds.length) +
            wrap (placeValue (base tok dflt).2.toInt ds))) =
            wrap (σ * placeValue (base tok dflt).2.toInt ds) := by
          rw [wrap_mul']; simp
        rw [e]
        exact .digits hp hs d1 d2
  · intro h
    cases h with
    | quoted b =>
      rw [(quotedChar_iff _ _).2 ⟨b, rfl, rfl⟩]
    | @digits pre sg bs b σ ds hp hs hd hlt =>
      have hq : quotedChar (pre ++ sg ++ bs) = none := by
        cases hq : quotedChar (pre ++ sg ++ bs) with
        | none => rfl
        | some w =>
          exfalso
          obtain ⟨x, hx, _⟩ := (quotedChar_iff _ _).1 hq
          have hne : ∀ y rest, bs = y :: rest → y ≠ 39 := by
            rintro y rest rfl
            obtain ⟨d, hd'⟩ := digitString_head hd
            exact (isDigit_ne hd').2.2.2.2.2.1
          cases hp <;> cases hs <;> simp at hx
          exact hne _ _ hx rfl
      rw [hq]
      simp only
      have hb1 : ∀ x rest, sg ++ bs = x :: rest → x ≠ 37 ∧ x ≠ 35 ∧ x ≠ 36 := by
        intro x rest he
        cases hs with
        | none =>
          simp only [List.nil_append] at he
          subst he
          obtain ⟨d, hd'⟩ := digitString_head hd
          have := isDigit_ne hd'
          exact ⟨this.1, this.2.1, this.2.2.1⟩
        | plus => simp at he; rw [← he.1]; decide
        | minus => simp at he; rw [← he.1]; decide
      obtain ⟨bc, e1, e2⟩ := base_of (dflt := dflt) (bs := sg ++ bs) hp hb1
      have e3 := sign_of (bs := bs) hs (by
        rintro y rest rfl
        obtain ⟨d, hd'⟩ := digitString_head hd
        have := isDigit_ne hd'
        exact ⟨this.2.2.2.1, this.2.2.2.2.1⟩)
      rw [List.append_assoc, e1]
      simp only
      rw [e3]
      have hu := (uintInBase_iff bc bs 0 (wrap (placeValue b ds))).2
        ⟨ds, hd, by rw [e2]; exact hlt, by rw [e2]; simp⟩
      rw [hu]
      simp only [wrap_mul']

/-! ### Decimal digit strings without wrap-around -/

theorem placeValue_nonneg (ds : List Nat) : 0 ≤ placeValue 10 ds := by
  induction ds with
  | nil => simp [placeValue]
  | cons d ds ih =>
    simp only [placeValue]
    have : (0 : Int) ≤ d * 10 ^ ds.length := Int.mul_nonneg (by omega) (Int.pow_nonneg (by omega))
    omega

theorem isDecimal_iff (b : Byte) : isDecimal b = true ↔ ∃ d, IsDigit b d ∧ d < 10 := by
  have h : ∀ b : BitVec 8, isDecimal b = true ↔ ∃ d : Fin 10, digit b = some d.val := by
    decide +kernel
  rw [h]
  constructor
  · rintro ⟨d, hd⟩; exact ⟨d.val, (digit_iff _ _).1 hd, d.isLt⟩
  · rintro ⟨d, hd, hl⟩; exact ⟨⟨d, hl⟩, (digit_iff _ _).2 hd⟩

theorem isDecimal_digit {b : Byte} {d : Nat} (h : IsDigit b d) (hd : d < 10) :
    isDecimal b = true ∧ b.toNat - 48 = d := by
  have hh : ∀ b : BitVec 8, ∀ d : Fin 10, digit b = some d.val → b.toNat - 48 = d.val := by
    decide +kernel
  exact ⟨(isDecimal_iff b).2 ⟨d, h, hd⟩, hh b ⟨d, hd⟩ ((digit_iff b d).2 h)⟩

/-- `uint` over the decimal digits at the front. -/
theorem uint_of {bs rest : List Byte} {ds : List Nat} (h : DecimalString bs ds)
    (hr : ∀ b r, rest = b :: r → isDecimal b = false) : ∀ (v : Nat),
    (v : Int) * 10 ^ ds.length + placeValue 10 ds < 2 ^ 63 →
    ∃ n : Nat, uint (bs ++ rest) v = some (rest, n) ∧
      (n : Int) = v * 10 ^ ds.length + placeValue 10 ds := by
  obtain ⟨h, hlt⟩ := h
  induction h with
  | nil =>
    intro v hv
    refine ⟨v, ?_, by simp [placeValue]⟩
    cases rest with
    | nil => rfl
    | cons b r => simp [uint, hr b r rfl]
  | @cons b d bs ds hb hs ih =>
    intro v hv
    obtain ⟨e1, e2⟩ := isDecimal_digit hb (hlt d (by simp))
    simp only [List.length_cons, placeValue] at hv ⊢
    have hpow : (v : Int) * 10 ^ (ds.length + 1) + (d * 10 ^ ds.length + placeValue 10 ds) =
        ((v * 10 + d : Nat) : Int) * 10 ^ ds.length + placeValue 10 ds := by
      grind
    rw [hpow] at hv ⊢
    obtain ⟨n, h1, h2⟩ := ih (fun x hx => hlt x (by simp [hx])) (v * 10 + d) hv
    refine ⟨n, ?_, h2⟩
    have hle : v * 10 + d ≤ 9223372036854775807 := by
      have h0 := placeValue_nonneg ds
      have h1 : (1 : Int) ≤ 10 ^ ds.length := by
        have := Int.pow_pos (n := (10 : Int)) (m := ds.length) (by omega); omega
      have h2 : ((v * 10 + d : Nat) : Int) * 1 ≤ ((v * 10 + d : Nat) : Int) * 10 ^ ds.length :=
        Int.mul_le_mul_of_nonneg_left h1 (by omega)
      omega
    simp only [List.cons_append, uint, e1, if_true, e2]
    rw [if_pos hle]
    exact h1

/-- What `uint` accepts. -/
theorem uint_split : ∀ (bs : List Byte) (v : Nat) (rest : List Byte) (n : Nat),
    uint bs v = some (rest, n) → v < 2 ^ 63 → ∃ ip ds, DecimalString ip ds ∧ bs = ip ++ rest ∧
      (n : Int) = v * 10 ^ ds.length + placeValue 10 ds ∧ n < 2 ^ 63 ∧
      (∀ b r, rest = b :: r → isDecimal b = false) := by
  intro bs
  induction bs with
  | nil =>
    intro v rest n h hv
    simp only [uint, Option.some.injEq, Prod.mk.injEq] at h
    obtain ⟨rfl, rfl⟩ := h
    exact ⟨[], [], ⟨.nil, by simp⟩, rfl, by simp [placeValue], hv, by simp⟩
  | cons b bs ih =>
    intro v rest n h hv
    simp only [uint] at h
    split at h
    · next hdec =>
      split at h
      · next hle =>
        obtain ⟨d, hd, hd10⟩ := (isDecimal_iff b).1 hdec
        obtain ⟨_, e2⟩ := isDecimal_digit hd hd10
        rw [e2] at h hle
        obtain ⟨ip, ds, h1, h2, h3, h4, h5⟩ := ih _ _ _ h (by omega)
        refine ⟨b :: ip, d :: ds, ⟨.cons hd h1.1, ?_⟩, by rw [h2]; rfl, ?_, h4, h5⟩
        · intro x hx
          simp only [List.mem_cons] at hx
          rcases hx with rfl | hx
          · exact hd10
          · exact h1.2 x hx
        · rw [h3]
          simp only [List.length_cons, placeValue]
          grind
      · simp at h
    · next hdec =>
      simp only [Option.some.injEq, Prod.mk.injEq] at h
      obtain ⟨rfl, rfl⟩ := h
      refine ⟨[], [], ⟨.nil, by simp⟩, rfl, by simp [placeValue], hv, ?_⟩
      rintro b' r hbr
      simp only [List.cons.injEq] at hbr
      rw [← hbr.1]
      simpa using hdec

/-- `fractionLoop` is `uint` with a digit counter. -/
theorem fractionLoop_eq : ∀ (bs : List Byte) (v len : Nat),
    fractionLoop bs v len = (uint bs v).map fun p => (p.1, p.2, len + (bs.length - p.1.length)) := by
  intro bs
  induction bs with
  | nil => intro v len; simp [fractionLoop, uint]
  | cons b bs ih =>
    intro v len
    simp only [fractionLoop, uint]
    split
    · split
      · rw [ih]
        cases hu : uint bs (v * 10 + (b.toNat - 48)) with
        | none => rfl
        | some p =>
          have hlen : p.1.length ≤ bs.length := by
            have : ∀ (bs : List Byte) (v : Nat) p, uint bs v = some p → p.1.length ≤ bs.length := by
              intro bs
              induction bs with
              | nil => intro v p h; simp [uint] at h; rw [← h]; simp
              | cons b bs ih =>
                intro v p h
                simp only [uint] at h
                split at h
                · split at h
                  · have := ih _ _ h; simp; omega
                  · simp at h
                · simp at h; rw [← h]; simp
            exact this _ _ _ hu
          simp only [Option.map_some, Option.some.injEq, Prod.mk.injEq, true_and, List.length_cons]
          omega
      · rfl
    · simp

/-! ### Floats -/

theorem decimal_head {b : Byte} {bs : List Byte} {ds : List Nat} (h : DecimalString (b :: bs) ds) :
    isDecimal b = true := by
  obtain ⟨h1, h2⟩ := h
  cases h1 with
  | cons hb hs => exact (isDecimal_digit hb (h2 _ (by simp))).1

theorem wrap_sign_toInt {sg : List Byte} {σ : Int} (h : SignPrefix sg σ) : (wrap σ).toInt = σ := by
  cases h <;> rfl

theorem exponent_value (σ v : Int) :
    ((wrap σ * wrap v).setWidth 32 : BitVec 32) = BitVec.ofInt 32 (σ * v) := by
  apply BitVec.eq_of_toInt_eq
  rw [← wrap_mul']
  simp only [wrap, BitVec.toInt_setWidth, BitVec.toInt_ofInt, BitVec.toNat_ofInt]
  rw [Int.toNat_of_nonneg (Int.emod_nonneg _ (by decide))]
  simp only [Int.bmod]
  omega

theorem fraction_of {f : FloatOps} {fr rest : List Byte} {fv : F64} (h : FractionPart f fr fv)
    (hr : ∀ b r, rest = b :: r → isDecimal b = false ∧ b ≠ 46) :
    fraction f (fr ++ rest) = some (rest, fv) := by
  cases h with
  | none =>
    cases rest with
    | nil => rfl
    | cons b r => simp only [List.nil_append, fraction, if_neg (hr b r rfl).2]
  | @some bs ds hd hlt =>
    obtain ⟨n, h1, h2⟩ := uint_of hd (fun b r h => (hr b r h).1) 0 (by simpa using hlt)
    have hl := digitString_length hd.1
    simp only [List.cons_append, fraction, fractionLoop_eq, h1, Option.map_some, if_true]
    simp only [Int.natCast_zero, Int.zero_mul, Int.zero_add] at h2
    have e : 0 + ((bs ++ rest).length - rest.length) = ds.length := by simp; omega
    rw [e]
    simp only [h2]

theorem fraction_split {f : FloatOps} {bs rest : List Byte} {fv : F64}
    (h : fraction f bs = some (rest, fv)) : ∃ fr, FractionPart f fr fv ∧ bs = fr ++ rest := by
  match bs with
  | [] => simp [fraction] at h; obtain ⟨rfl, rfl⟩ := h; exact ⟨[], .none, rfl⟩
  | b :: bs =>
    by_cases hb : b = 46
    · subst hb
      simp only [fraction, if_true, fractionLoop_eq] at h
      cases hu : uint bs 0 with
      | none => rw [hu] at h; simp at h
      | some p =>
        obtain ⟨rest', n⟩ := p
        rw [hu] at h
        simp only [Option.map_some, Option.some.injEq, Prod.mk.injEq] at h
        obtain ⟨rfl, rfl⟩ := h
        obtain ⟨ip, ds, h1, h2, h3, h4, _⟩ := uint_split _ _ _ _ hu (by omega)
        have hl := digitString_length h1.1
        refine ⟨46 :: ip, ?_, by rw [h2]; rfl⟩
        have e : 0 + (bs.length - rest'.length) = ds.length := by rw [h2]; simp; omega
        rw [e]
        have h3' : (n : Int) = placeValue 10 ds := by rw [h3]; simp
        rw [h3']
        exact .some h1 (by omega)
    · simp only [fraction, if_neg hb, Option.some.injEq, Prod.mk.injEq] at h
      obtain ⟨rfl, rfl⟩ := h
      exact ⟨[], .none, rfl⟩

theorem isDecimal_ne {b : Byte} (h : isDecimal b = true) : b ≠ 43 ∧ b ≠ 45 ∧ b ≠ 46 := by
  refine ⟨?_, ?_, ?_⟩ <;> rintro rfl <;> simp [isDecimal] at h

theorem exponent_of {esg ebs : List Byte} {σ : Int} {eds : List Nat} (hs : SignPrefix esg σ)
    (hd : DecimalString ebs eds) (hlt : placeValue 10 eds < 2 ^ 63) :
    ∃ n : Nat, exponent (esg ++ ebs) = some ([], wrap σ, n) ∧ (n : Int) = placeValue 10 eds := by
  obtain ⟨n, h1, h2⟩ := uint_of (rest := []) hd (by simp) 0 (by simpa using hlt)
  refine ⟨n, ?_, by simpa using h2⟩
  simp only [List.append_nil] at h1
  simp only [exponent]
  rw [sign_of hs]
  · simp only [h1]
  · rintro b r rfl
    have := isDecimal_ne (decimal_head hd)
    exact ⟨this.1, this.2.1⟩

theorem exponent_split {bs rest : List Byte} {es : Cell} {n : Nat}
    (h : exponent bs = some (rest, es, n)) : ∃ esg σ ebs eds, SignPrefix esg σ ∧
      DecimalString ebs eds ∧ placeValue 10 eds < 2 ^ 63 ∧ bs = esg ++ ebs ++ rest ∧
      es = wrap σ ∧ (n : Int) = placeValue 10 eds := by
  simp only [exponent] at h
  obtain ⟨esg, σ, h1, h2, h3⟩ := sign_split bs
  cases hu : uint (sign bs).1 0 with
  | none => rw [hu] at h; simp at h
  | some p =>
    obtain ⟨rest', m⟩ := p
    rw [hu] at h
    simp only [Option.some.injEq, Prod.mk.injEq] at h
    obtain ⟨rfl, rfl, rfl⟩ := h
    obtain ⟨ebs, eds, d1, d2, d3, d4, _⟩ := uint_split _ _ _ _ hu (by omega)
    have d3' : (m : Int) = placeValue 10 eds := by rw [d3]; simp
    refine ⟨esg, σ, ebs, eds, h1, d1, by omega, ?_, h3, d3'⟩
    rw [List.append_assoc, ← d2]; exact h2

/-- `evaluate_float` accepts exactly the floating point tokens. -/
theorem floatValue_iff (f : FloatOps) (tok : List Byte) (v : F64) :
    floatValue f tok = .ok v ↔ FloatToken f tok v := by
  constructor
  · intro h
    simp only [floatValue] at h
    obtain ⟨sg, σ, s1, s2, s3⟩ := sign_split tok
    cases hu : uint (sign tok).1 0 with
    | none => rw [hu] at h; simp at h
    | some p =>
      obtain ⟨rest, ipn⟩ := p
      obtain ⟨ip, ids, i1, i2, i3, i4, _⟩ := uint_split _ _ _ _ hu (by omega)
      have i3' : (ipn : Int) = placeValue 10 ids := by rw [i3]; simp
      rw [hu] at h
      simp only at h
      split at h
      · simp at h
      · next hne =>
        have hids : ids ≠ [] := by
          rintro rfl
          cases i1.1
          rw [i2] at hne; simp at hne
        cases hf : fraction f rest with
        | none => rw [hf] at h; simp at h
        | some q =>
          obtain ⟨rest2, fp⟩ := q
          obtain ⟨fr, f1, f2⟩ := fraction_split hf
          rw [hf] at h
          simp only at h
          have hexp : ∃ e esg esign ebs eds, (e = (69 : Byte) ∨ e = 101) ∧ SignPrefix esg esign ∧
              DecimalString ebs eds ∧ placeValue 10 eds < 2 ^ 63 ∧ rest2 = e :: (esg ++ ebs) ∧
              v = f.mul (f.mul (f.ofInt (sign tok).2.toInt) (f.add (f.ofInt ipn) fp))
                (f.pow10 (BitVec.ofInt 32 (esign * placeValue 10 eds)).toInt) := by
            match rest2, h with
            | [], h => simp [Parser.ascii] at h
            | b :: bs, h =>
              have key : ∀ (rest' : List Byte) (es : Cell) (ev : Nat),
                  exponent bs = some (rest', es, ev) → rest' = [] →
                  v = f.mul (f.mul (f.ofInt (sign tok).2.toInt) (f.add (f.ofInt ipn) fp))
                    (f.pow10 ((es * BitVec.ofNat 64 ev).setWidth 32).toInt) →
                  (b = 69 ∨ b = 101) → ∃ e esg esign ebs eds, (e = (69 : Byte) ∨ e = 101) ∧
                    SignPrefix esg esign ∧
                    DecimalString ebs eds ∧ placeValue 10 eds < 2 ^ 63 ∧
                    b :: bs = e :: (esg ++ ebs) ∧
                    v = f.mul (f.mul (f.ofInt (sign tok).2.toInt) (f.add (f.ofInt ipn) fp))
                      (f.pow10 (BitVec.ofInt 32 (esign * placeValue 10 eds)).toInt) := by
                intro rest' es ev he hnil hv hb
                obtain ⟨esg, esign, ebs, eds, e1, e2, e3, e4, e5, e6⟩ := exponent_split he
                refine ⟨b, esg, esign, ebs, eds, hb, e1, e2, e3, ?_, ?_⟩
                · rw [e4, hnil, List.append_nil]
                · rw [hv, e5, ← wrap_natCast, e6, exponent_value]
              simp only [Parser.ascii] at h
              by_cases hb : b = 69
              · simp only [hb, if_true] at h
                cases he : exponent bs with
                | none => rw [he] at h; simp at h
                | some q =>
                  obtain ⟨rest', es, ev⟩ := q
                  rw [he] at h
                  simp only at h
                  split at h
                  · simp at h
                  · split at h
                    · simp at h
                    · next hz =>
                      simp only [Except.ok.injEq] at h
                      exact key rest' es ev he (List.length_eq_zero_iff.1 (by omega)) h.symm
                        (.inl hb)
              · by_cases hb2 : b = 101
                · simp only [if_neg hb, if_pos hb2, Bool.false_eq_true, if_false, if_true] at h
                  cases he : exponent bs with
                  | none => rw [he] at h; simp at h
                  | some q =>
                    obtain ⟨rest', es, ev⟩ := q
                    rw [he] at h
                    simp only at h
                    split at h
                    · simp at h
                    · split at h
                      · simp at h
                      · next hz =>
                        simp only [Except.ok.injEq] at h
                        exact key rest' es ev he (List.length_eq_zero_iff.1 (by omega)) h.symm
                          (.inr hb2)
                · simp only [if_neg hb, if_neg hb2, Bool.false_eq_true, if_false] at h
                  simp at h
          obtain ⟨e, esg, esign, ebs, eds, he, hes, hed, hel, hr2, hv⟩ := hexp
          rw [hv, s3, wrap_sign_toInt s1, i3']
          have ht : tok = sg ++ ip ++ fr ++ [e] ++ esg ++ ebs := by
            rw [s2, i2, f2, hr2]; simp [List.append_assoc]
          rw [ht]
          exact .mk s1 i1 hids (by omega) f1 he hes hed hel
  · intro h
    cases h with
    | @mk sg ip fr esg ebs e sign' esign ids eds fv hs hi hne hil hf he hes hed hel =>
      have hip : ∃ b r, ip = b :: r := by
        match ids, hne with
        | d :: ds, _ =>
          obtain ⟨h1, _⟩ := hi
          cases h1
          exact ⟨_, _, rfl⟩
      obtain ⟨b0, r0, hip⟩ := hip
      have hb0 : isDecimal b0 = true := by rw [hip] at hi; exact decimal_head hi
      have e1 : sign (sg ++ (ip ++ (fr ++ e :: (esg ++ ebs)))) =
          (ip ++ (fr ++ e :: (esg ++ ebs)), wrap sign') := by
        apply sign_of hs
        intro b r hbr
        rw [hip] at hbr
        simp only [List.cons_append, List.cons.injEq] at hbr
        rw [← hbr.1]
        have := isDecimal_ne hb0
        exact ⟨this.1, this.2.1⟩
      have hedec : isDecimal e = false ∧ e ≠ 46 := by
        rcases he with rfl | rfl <;> decide
      have hfdec : ∀ b r, fr ++ e :: (esg ++ ebs) = b :: r → isDecimal b = false := by
        intro b r hbr
        cases hf with
        | none => simp at hbr; rw [← hbr.1]; exact hedec.1
        | some => simp at hbr; rw [← hbr.1]; decide
      obtain ⟨n, u1, u2⟩ := uint_of hi hfdec 0 (by simpa using hil)
      have u2' : (n : Int) = placeValue 10 ids := by simpa using u2
      have e2 := fraction_of (rest := e :: (esg ++ ebs)) hf (by
        intro b r hbr
        simp only [List.cons.injEq] at hbr
        rw [← hbr.1]; exact hedec)
      obtain ⟨m, x1, x2⟩ := exponent_of hes hed hel
      have htok : sg ++ ip ++ fr ++ [e] ++ esg ++ ebs = sg ++ (ip ++ (fr ++ e :: (esg ++ ebs))) := by
        simp [List.append_assoc]
      rw [htok]
      simp only [floatValue, e1, u1]
      have hlen : (fr ++ e :: (esg ++ ebs)).length ≠ (ip ++ (fr ++ e :: (esg ++ ebs))).length := by
        rw [hip]; simp; omega
      rw [if_neg hlen, e2]
      rcases he with rfl | rfl
      · simp only [Parser.ascii, if_true, x1]
        rw [if_neg (by simp), if_neg (by simp), wrap_sign_toInt hs, u2', ← wrap_natCast, x2,
          exponent_value]
      · have h69 : ¬ ((101 : Byte) = 69) := by decide
        simp only [Parser.ascii, if_neg h69, if_true, x1, Bool.false_eq_true, if_false]
        rw [if_neg (by simp), if_neg (by simp), wrap_sign_toInt hs, u2', ← wrap_natCast, x2,
          exponent_value]

/-! ### Printed digits -/

theorem digitChar_isDigit : ∀ d : Fin 16,
    IsDigit (if d.val < 10 then BitVec.ofNat 8 (48 + d.val) else BitVec.ofNat 8 (55 + d.val)) d.val := by
  intro d
  rw [← digit_iff]
  revert d
  decide

/-- Printed digits are a digit string of the number. -/
theorem digitsLoop_spec (b : Nat) (hb : 2 ≤ b) (hb16 : b ≤ 16) : ∀ (fuel n : Nat) (acc : List Byte)
    (ads : List Nat), n < fuel → DigitString acc ads → (∀ d ∈ ads, d < b) →
    ∃ ds, DigitString (digitsLoop b fuel n acc) ds ∧ (∀ d ∈ ds, d < b) ∧ ds ≠ [] ∧
      placeValue b ds = n * (b : Int) ^ ads.length + placeValue b ads := by
  intro fuel
  induction fuel with
  | zero => intro n acc ads h; omega
  | succ fuel ih =>
    intro n acc ads hn hs hlt
    have hmod : n % b < b := Nat.mod_lt _ (by omega)
    have hd := digitChar_isDigit ⟨n % b, by omega⟩
    simp only at hd
    have hs' := DigitString.cons hd hs
    have hlt' : ∀ d ∈ n % b :: ads, d < b := by
      intro d hd
      simp only [List.mem_cons] at hd
      rcases hd with rfl | hd
      · exact hmod
      · exact hlt d hd
    simp only [digitsLoop]
    split
    · next h0 =>
      refine ⟨n % b :: ads, hs', hlt', by simp, ?_⟩
      simp only [placeValue]
      have : n % b = n := Nat.mod_eq_of_lt (by
        rcases Nat.div_eq_zero_iff.1 h0 with h | h <;> omega)
      rw [this]
    · next h0 =>
      have hlt2 : n / b < n := Nat.div_lt_self (by
        rcases Nat.eq_zero_or_pos n with h | h
        · rw [h] at h0; simp at h0
        · exact h) hb
      obtain ⟨ds, d1, d2, d3, d4⟩ := ih (n / b) _ (n % b :: ads) (by omega) hs' hlt'
      refine ⟨ds, d1, d2, d3, ?_⟩
      rw [d4]
      simp only [placeValue, List.length_cons]
      have hdm : (n : Int) = (b : Int) * ((n / b : Nat) : Int) + ((n % b : Nat) : Int) := by
        have := Nat.div_add_mod n b
        exact_mod_cast this.symm
      generalize hq : ((n / b : Nat) : Int) = q at *
      generalize hr : ((n % b : Nat) : Int) = r at *
      rw [hdm]
      grind

theorem digits_spec (b n : Nat) (hb : 2 ≤ b) (hb16 : b ≤ 16) : ∃ ds, DigitString (digits b n) ds ∧
    (∀ d ∈ ds, d < b) ∧ ds ≠ [] ∧ placeValue b ds = n := by
  obtain ⟨ds, h1, h2, h3, h4⟩ :=
    digitsLoop_spec b hb hb16 (n + 1) n [] [] (by omega) .nil (by simp)
  exact ⟨ds, h1, h2, h3, by rw [h4]; simp [placeValue]⟩

theorem digitsLoop_length (b : Nat) (hb : 2 ≤ b) : ∀ (fuel n k : Nat) (acc : List Byte),
    n < 2 ^ (k + 1) → (digitsLoop b fuel n acc).length ≤ acc.length + k + 1 := by
  intro fuel
  induction fuel with
  | zero => intro n k acc h; simp [digitsLoop]; omega
  | succ fuel ih =>
    intro n k acc h
    simp only [digitsLoop]
    split
    · simp
    · next h0 =>
      cases k with
      | zero =>
        exfalso
        apply h0
        exact Nat.div_eq_of_lt (by omega)
      | succ k =>
        have hle : n / b ≤ n / 2 := Nat.div_le_div_left hb (by omega)
        have := ih (n / b) k ((if n % b < 10 then BitVec.ofNat 8 (48 + n % b)
          else BitVec.ofNat 8 (55 + n % b)) :: acc) (by rw [Nat.pow_succ] at h; omega)
        simp only [List.length_cons] at this
        omega

theorem digits_length (b n : Nat) (hb : 2 ≤ b) (hn : n < 2 ^ 64) : (digits b n).length ≤ 64 := by
  have := digitsLoop_length b hb (n + 1) n 63 [] (by simpa using hn)
  simpa [digits] using this

/-- The printed text of a cell is an integer token for it. -/
theorem fmtBase_token (base v : Cell) (txt : List Byte) (h : fmtBase base v = some txt) :
    IntegerToken base.toInt txt v ∧ 1 ≤ txt.length ∧ txt.length ≤ 65 := by
  have hpos : ∀ (b : Nat), 2 ≤ b → b ≤ 16 → (b : Int) = base.toInt →
      IntegerToken base.toInt (digits b v.toNat) v ∧ 1 ≤ (digits b v.toNat).length ∧
        (digits b v.toNat).length ≤ 65 := by
    intro b hb hb16 he
    obtain ⟨ds, h1, h2, h3, h4⟩ := digits_spec b v.toNat hb hb16
    have hl := digits_length b v.toNat hb v.isLt
    have hlen := digitString_length h1
    have : 1 ≤ ds.length := by cases ds <;> simp_all
    refine ⟨?_, by omega, by omega⟩
    have ht := IntegerToken.digits (default := base.toInt) .none .none h1
      (by intro d hd; have := h2 d hd; omega)
    rw [← he, h4] at ht
    rw [← he]
    have e : wrap (1 * (v.toNat : Int)) = v := by
      rw [Int.one_mul, wrap_natCast]; simp
    rw [e] at ht
    simpa using ht
  simp only [fmtBase] at h
  split at h
  · next hb => simp only [Option.some.injEq] at h; rw [← h]; exact hpos 2 (by omega) (by omega) (by rw [hb]; decide)
  split at h
  · next hb => simp only [Option.some.injEq] at h; rw [← h]; exact hpos 8 (by omega) (by omega) (by rw [hb]; decide)
  split at h
  · next hb =>
    simp only [Option.some.injEq] at h; rw [← h]
    have h10 : ((10 : Nat) : Int) = base.toInt := by rw [hb]; decide
    simp only [fmtDec]
    split
    · next hneg =>
      obtain ⟨ds, h1, h2, h3, h4⟩ := digits_spec 10 v.toInt.natAbs (by omega) (by omega)
      have hl := digits_length 10 v.toInt.natAbs (by omega) (by
        have := BitVec.le_toInt v; omega)
      simp only [List.length_cons]
      refine ⟨?_, by omega, by omega⟩
      have ht := IntegerToken.digits (default := base.toInt) .none .minus h1
        (by intro d hd; have := h2 d hd; omega)
      rw [← h10, h4] at ht
      rw [← h10]
      have e : wrap (-1 * (v.toInt.natAbs : Int)) = v := by
        have : -1 * (v.toInt.natAbs : Int) = v.toInt := by omega
        rw [this, wrap_toInt]
      rw [e] at ht
      simpa using ht
    · exact hpos 10 (by omega) (by omega) h10
  split at h
  · next hb => simp only [Option.some.injEq] at h; rw [← h]; exact hpos 16 (by omega) (by omega) (by rw [hb]; decide)
  · simp at h

end Verif
