import Verif.Model.Output

/-!
# Decimal numerals
-/

namespace Verif

theorem ascii_append (a b : String) : ascii (a ++ b) = ascii a ++ ascii b := by
  simp [ascii, utf8]

theorem digitsLoop_ten (fuel : Nat) : ∀ (n : Nat) (l : List Char),
    digitsLoop 10 fuel n (utf8 l) = utf8 (Nat.toDigitsCore 10 fuel n l) := by
  induction fuel with
  | zero => intro n l; rfl
  | succ k ih =>
    intro n l
    have h10 : n % 10 < 10 := Nat.mod_lt _ (by decide)
    have hd : ∀ d, d < 10 → [BitVec.ofNat 8 (48 + d)] = utf8 [Nat.digitChar d] := by
      decide
    have hc : ∀ c, utf8 (c :: l) = utf8 [c] ++ utf8 l := by simp [utf8]
    have e := hd _ h10
    rw [digitsLoop, Nat.toDigitsCore]
    simp only [h10, if_true]
    split
    · rw [hc, ← e]; rfl
    · rw [← ih (n / 10) _, hc, ← e]; rfl

theorem digits_ten (n : Nat) : digits 10 n = ascii (toString n) := by
  have := digitsLoop_ten (n + 1) n []
  rw [digits]
  rw [show toString n = String.ofList (Nat.toDigits 10 n) from rfl, ascii, Nat.toDigits]
  rw [String.toList_ofList]
  exact this

/-- What `.` prints. -/
theorem fmtBase_ten {base : Cell} (hb : base.toInt = 10) (v : Cell) : fmtBase base v = some (ascii (toString v.toInt)) := by
  have : base = 10 := BitVec.eq_of_toInt_eq (by rw [hb]; decide)
  subst this
  rw [fmtBase, if_neg (by decide), if_neg (by decide), if_pos rfl, fmtDec]
  congr 1
  split
  · rename_i h
    obtain ⟨m, hm⟩ : ∃ m, v.toInt = Int.negSucc m := ⟨v.toInt.natAbs - 1, by omega⟩
    rw [hm, digits_ten, show toString (Int.negSucc m) = "-" ++ toString (m + 1) from rfl, ascii_append]
    rfl
  · rename_i h
    have : v.toInt = Int.ofNat v.toNat := by
      have := v.isLt
      rw [BitVec.toInt_eq_toNat_cond] at h ⊢
      split at h <;> rename_i h2
      · rw [if_pos h2]; rfl
      · omega
    rw [this, digits_ten]
    rfl

end Verif
