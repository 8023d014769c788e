import Verif.Spec.Exceptions
import Verif.Props.Errors

/-!
# C47: exception codes
-/

namespace Verif
open Spec

/-- C47. The constants are named differently and have different codes. -/
theorem C47_distinct : (exnTable.map (·.1)).Nodup ∧ (exnTable.map (·.2)).Nodup := by
  constructor <;> decide +kernel

/-- C47. The codes are those of the standard, and each is named after what the standard reserves it for. -/
theorem C47_standard : exnTable.map (·.2) = standard.map (·.1) ∧
    ∀ r ∈ exnTable, ∃ m ∈ standard, r.2 = m.1 ∧ (letters r.1 = letters m.2 ∨ (r.1, m.2) ∈ paraphrases) := by
  constructor <;> decide +kernel

/-- The exceptions that words raise. -/
def usedExceptions : List (Exn × String) := [
  (.abort, "ABORT"), (.abortQuote, "ABORT_QUOTE"), (.stackOverflow, "STACK_OVERFLOW"),
  (.stackUnderflow, "STACK_UNDERFLOW"), (.returnStackOverflow, "RETURN_STACK_OVERFLOW"),
  (.returnStackUnderflow, "RETURN_STACK_UNDERFLOW"), (.invalidMemoryAddress, "INVALID_MEMORY_ADDRESS"),
  (.divisionByZero, "DIVISION_BY_ZERO"), (.resultOutOfRange, "RESULT_OUT_OF_RANGE"),
  (.undefinedWord, "UNDEFINED_WORD"), (.interpretingCompileOnly, "INTERPRETING_A_COMPILE_ONLY_WORD"),
  (.unsupportedOperation, "UNSUPPORTED_OPERATION"), (.controlStructureMismatch, "CONTROL_STRUCTURE_MISMATCH"),
  (.invalidNumericArgument, "INVALID_NUMERIC_ARGUMENT"), (.fileIO, "FILE_IO_EXCEPTION"),
  (.unexpectedEOF, "UNEXPECTED_END_OF_FILE"), (.fStackOverflow, "FLOATING_POINT_STACK_OVERFLOW"),
  (.fStackUnderflow, "FLOATING_POINT_STACK_UNDERFLOW")]

/-- C47. The exceptions that words raise are the constants of these names. -/
theorem C47_used : ∀ r ∈ usedExceptions, (r.2, r.1.code) ∈ exnTable := by decide +kernel

/-- C47. An exception that is reported has a code that the standard reserves and a description, and the code is
what a program sees as a cell. -/
theorem C47_raised {cfg : Cfg} {s t : VM} (hi : InSpace s) (h : Reach cfg s t) {e : Exn}
    (h0 : s.lastError = none) (ht : t.lastError = some e) :
    (∃ m ∈ standard, e.code = m.1) ∧ description e ≠ "" ∧ e.toCell.toInt = e.code := by
  have hr : Reserved e := by
    rcases (h.changes hi).raised ht with h1 | h1
    · rw [h0] at h1; cases h1
    · exact h1.1
  obtain ⟨h1, h2⟩ := hr
  obtain ⟨k⟩ := e
  simp only at h1 h2
  have key : ∀ n : Fin 58, (∃ m ∈ standard, -(n.val : Int) - 1 = m.1) ∧ description ⟨-(n.val : Int) - 1⟩ ≠ "" := by
    decide +kernel
  have := key ⟨(-1 - k).toNat, by omega⟩
  simp only at this
  rw [show -(((-1 - k).toNat : Nat) : Int) - 1 = k by omega] at this
  refine ⟨this.1, this.2, ?_⟩
  simp only [Exn.toCell, BitVec.toInt_ofInt, Int.bmod]
  omega

/-- C47. Each code is described by what the standard reserves it for. -/
theorem C47_described : ∀ m ∈ standard, letters (description ⟨m.1⟩) = letters m.2 ∨ (description ⟨m.1⟩, m.2) ∈ restated := by
  decide +kernel

/-- C47 is false of the descriptions: two exceptions are described alike. -/
theorem C47_refuted : ∃ a ∈ exnTable, ∃ b ∈ exnTable, a.2 ≠ b.2 ∧ description ⟨a.2⟩ = description ⟨b.2⟩ :=
  ⟨("ABORT", -1), by decide, ("ABORT_QUOTE", -2), by decide, by decide, rfl⟩

/-- C47. Apart from those two, each exception has its own description. -/
theorem C47_descriptions_partial : ∀ a ∈ exnTable, ∀ b ∈ exnTable, description ⟨a.2⟩ = description ⟨b.2⟩ →
    a.2 = b.2 ∨ a.2 ∈ [-1, -2] ∧ b.2 ∈ [-1, -2] := by
  decide +kernel

/-- Non-vacuity of `C47_raised`. -/
example : Reserved .divisionByZero ∧ Exn.divisionByZero.toCell.toInt = -10 := by decide

end Verif
