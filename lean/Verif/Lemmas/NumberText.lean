import Verif.Lemmas.Numeral

/-!
# The digits of a number in any base up to 16
-/

namespace Verif

theorem digitsLoop_upper {b : Nat} (hb : 0 < b) (hb' : b ≤ 16) (fuel : Nat) : ∀ (n : Nat) (l : List Char),
    digitsLoop b fuel n (utf8 (l.map Char.toUpper)) = utf8 ((Nat.toDigitsCore b fuel n l).map Char.toUpper) := by
  induction fuel with
  | zero => intro n l; rfl
  | succ k ih =>
    intro n l
    have h16 : n % b < 16 := Nat.lt_of_lt_of_le (Nat.mod_lt _ hb) hb'
    have hd : ∀ d, d < 16 → [if d < 10 then BitVec.ofNat 8 (48 + d) else BitVec.ofNat 8 (55 + d)] =
        utf8 [(Nat.digitChar d).toUpper] := by decide
    have hc : ∀ c, utf8 ((c :: l).map Char.toUpper) = utf8 [c.toUpper] ++ utf8 (l.map Char.toUpper) := by
      simp [utf8]
    have e := hd _ h16
    rw [digitsLoop, Nat.toDigitsCore]
    split
    · rw [hc, ← e]; rfl
    · rw [← ih (n / b) _, hc, ← e]; rfl

theorem digits_upper {b : Nat} (hb : 0 < b) (hb' : b ≤ 16) (n : Nat) :
    digits b n = utf8 ((Nat.toDigits b n).map Char.toUpper) :=
  digitsLoop_upper hb hb' (n + 1) n []

end Verif
