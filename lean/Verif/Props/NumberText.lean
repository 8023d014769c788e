import Verif.Props.Numbers
import Verif.Lemmas.NumberText

/-!
# C15: the exact text of a printed number
-/

namespace Verif
open Spec

/-- The text of `n` in `base`: the signed decimal numeral in base 10, and in any other base the
digits of the unsigned value, without leading zeros and in upper case. -/
def Spec.numeral (base n : Cell) : String :=
  if base = 10 then toString n.toInt
  else String.ofList ((Nat.toDigits base.toNat n.toNat).map Char.toUpper)

theorem fmtBase_numeral {base n : Cell} {txt : List Byte} (h : fmtBase base n = some txt) :
    txt = ascii (numeral base n) := by
  have hd : base ≠ 10 → 0 < base.toNat → base.toNat ≤ 16 →
      digits base.toNat n.toNat = ascii (numeral base n) := by
    intro h10 h0 h16
    rw [digits_upper h0 h16, numeral, if_neg h10, ascii, String.toList_ofList]
  by_cases h10 : base = 10
  · subst h10
    rw [fmtBase_ten (by decide) n] at h
    simp only [Option.some.injEq] at h
    rw [← h]
    rfl
  · rw [fmtBase] at h
    split at h
    · rename_i hb; subst hb
      simp only [Option.some.injEq] at h; rw [← h]
      exact hd h10 (by decide) (by decide)
    split at h
    · rename_i hb; subst hb
      simp only [Option.some.injEq] at h; rw [← h]
      exact hd h10 (by decide) (by decide)
    split at h
    · rename_i hb; subst hb
      simp only [Option.some.injEq] at h; rw [← h]
      exact hd h10 (by decide) (by decide)
    · simp at h

/-- C15. With base 2, 8, 10 or 16 and any width not within 65 of the least cell, what `n w .r` writes
is blanks and then exactly the numeral of `n`: its sign and digits in base 10, the upper-case digits
of its two's complement in the other bases, without a leading zero. There are as many blanks as
fill the field, and none if the numeral does. -/
theorem C15_text (c : Ctx) (s : VM) (n w : Cell) (l : List Cell) (o : List Byte)
    (hd : SoundSpace s.ds) (hb : currentBase s ∈ [2, 8, 10, 16])
    (hi : s.task.s.items = w :: n :: l) (ho : s.outbuf = some o) (hw : -2 ^ 63 + 65 ≤ w.toInt) :
    ∃ p, primOf ".r" = some p ∧ ∃ st',
      action c p s = .ok ((), { withData s st' with
        hldbuf := ascii (numeral (currentBase s) n)
        outbuf := some (o ++ (List.replicate (w.toInt - (ascii (numeral (currentBase s) n)).length).toNat 32 ++
          ascii (numeral (currentBase s) n))) }) ∧ st'.items = l := by
  obtain ⟨st', pad, txt, h1, h2, h3, h4, _, h6⟩ := dotR_spec c s n w l o hd hb hi ho hw
  have ht := fmtBase_numeral h4
  subst ht
  have hp : pad = List.replicate (w.toInt - (ascii (numeral (currentBase s) n)).length).toNat 32 := by
    rw [List.eq_replicate_iff]
    refine ⟨?_, h3⟩
    rw [List.length_append] at h6
    omega
  subst hp
  exact ⟨_, rfl, st', h1, h2⟩

/-- The numerals of -1 in the four bases, and of 0 and 255 in base 16. -/
example : numeral 16 (wrap (-1)) = "FFFFFFFFFFFFFFFF" ∧ numeral 10 (wrap (-1)) = "-1" ∧
    numeral 8 (wrap (-1)) = "1777777777777777777777" ∧ numeral 2 5 = "101" ∧
    numeral 16 0 = "0" ∧ numeral 16 255 = "FF" := by
  decide +kernel

/-- The hypotheses hold of a fresh machine given two numbers. -/
example : currentBase (VM.blank 4096 4096) ∈ [2, 8, 10, 16] ∧ SoundSpace (VM.blank 4096 4096).ds ∧
    (withData (VM.blank 4096 4096) ((Stack.new 0).push2 5 3)).task.s.items = [3, 5] ∧
    (VM.blank 4096 4096).outbuf = some [] :=
  ⟨by decide, ⟨by decide, by decide, by decide, by decide, by decide⟩, rfl, rfl⟩

end Verif
