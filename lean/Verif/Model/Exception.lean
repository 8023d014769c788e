import Verif.Model.Basic

/-!
# Exception codes (src/exception.rs)
-/

namespace Verif

/-- src/exception.rs 6 `Exception(i16)`. -/
structure Exn where
  code : Int
  deriving DecidableEq, Repr

namespace Exn
/-- src/exception.rs 8-12: conversion to a cell. -/
def toCell (e : Exn) : Cell := BitVec.ofInt 64 e.code

/-- src/exception.rs 15 -/
def abort : Exn := ⟨-1⟩
/-- src/exception.rs 17 -/
def abortQuote : Exn := ⟨-2⟩
/-- src/exception.rs 19 -/
def stackOverflow : Exn := ⟨-3⟩
/-- src/exception.rs 21 -/
def stackUnderflow : Exn := ⟨-4⟩
/-- src/exception.rs 23 -/
def returnStackOverflow : Exn := ⟨-5⟩
/-- src/exception.rs 25 -/
def returnStackUnderflow : Exn := ⟨-6⟩
/-- src/exception.rs 31 -/
def invalidMemoryAddress : Exn := ⟨-9⟩
/-- src/exception.rs 33 -/
def divisionByZero : Exn := ⟨-10⟩
/-- src/exception.rs 35 -/
def resultOutOfRange : Exn := ⟨-11⟩
/-- src/exception.rs 39 -/
def undefinedWord : Exn := ⟨-13⟩
/-- src/exception.rs 41 -/
def interpretingCompileOnly : Exn := ⟨-14⟩
/-- src/exception.rs 55 -/
def unsupportedOperation : Exn := ⟨-21⟩
/-- src/exception.rs 57 -/
def controlStructureMismatch : Exn := ⟨-22⟩
/-- src/exception.rs 61 -/
def invalidNumericArgument : Exn := ⟨-24⟩
/-- src/exception.rs 87 -/
def fileIO : Exn := ⟨-37⟩
/-- src/exception.rs 91 -/
def unexpectedEOF : Exn := ⟨-39⟩
/-- src/exception.rs 101 -/
def fStackOverflow : Exn := ⟨-44⟩
/-- src/exception.rs 103 -/
def fStackUnderflow : Exn := ⟨-45⟩
end Exn

/-- src/exception.rs 14-129: the named constants with their codes. -/
def exnTable : List (String × Int) := [
  ("ABORT", -1),
  ("ABORT_QUOTE", -2),
  ("STACK_OVERFLOW", -3),
  ("STACK_UNDERFLOW", -4),
  ("RETURN_STACK_OVERFLOW", -5),
  ("RETURN_STACK_UNDERFLOW", -6),
  ("DO_LOOP_NESTED_TOO_DEEPLY", -7),
  ("DICTIONARY_OVERFLOW", -8),
  ("INVALID_MEMORY_ADDRESS", -9),
  ("DIVISION_BY_ZERO", -10),
  ("RESULT_OUT_OF_RANGE", -11),
  ("ARGUMENT_TYPE_MISMATCH", -12),
  ("UNDEFINED_WORD", -13),
  ("INTERPRETING_A_COMPILE_ONLY_WORD", -14),
  ("INVALID_FORGET", -15),
  ("ATTEMPT_TO_USE_ZERO_LENGTH_STRING", -16),
  ("PICTURED_NUMERIC_OUTPUT_STRING_OVERFLOW", -17),
  ("PARSED_STRING_OVERFLOW", -18),
  ("DEFINITION_NAME_TOO_LONG", -19),
  ("WRITE_TO_A_READ_ONLY_LOCATION", -20),
  ("UNSUPPORTED_OPERATION", -21),
  ("CONTROL_STRUCTURE_MISMATCH", -22),
  ("ADDRESS_ALIGNMENT_EXCEPTION", -23),
  ("INVALID_NUMERIC_ARGUMENT", -24),
  ("RETURN_STACK_IMBALANCE", -25),
  ("LOOP_PARAMETERS_UNAVAILABLE", -26),
  ("INVALID_RECURSION", -27),
  ("USER_INTERRUPT", -28),
  ("COMPILER_NESTING", -29),
  ("OBSOLESCENT_FEATURE", -30),
  ("TO_BODY_USED_ON_NON_CREATED_DEFINITION", -31),
  ("INVALID_NAME_ARGUMENT", -32),
  ("BLOCK_READ_EXCEPTION", -33),
  ("BLOCK_WRITE_EXCEPTION", -34),
  ("INVALID_BLOCK_NUMBER", -35),
  ("INVALID_FILE_POSITION", -36),
  ("FILE_IO_EXCEPTION", -37),
  ("NON_EXISTENT_FILE", -38),
  ("UNEXPECTED_END_OF_FILE", -39),
  ("INVALID_BASE_FOR_FLOATING_POINT_CONVERSION", -40),
  ("LOSS_OF_PRECISION", -41),
  ("FLOATING_POINT_DIVIDED_BY_ZERO", -42),
  ("FLOATING_POINT_RESULT_OUT_OF_RANGE", -43),
  ("FLOATING_POINT_STACK_OVERFLOW", -44),
  ("FLOATING_POINT_STACK_UNDERFLOW", -45),
  ("FLOATING_POINT_INVALID_ARGUMENT", -46),
  ("COMPILATION_WORD_LIST_DELETED", -47),
  ("INVALID_POSTPONE", -48),
  ("SEARCH_ORDER_OVERFLOW", -49),
  ("SEARCH_ORDER_UNDERFLOW", -50),
  ("COMPILATION_WORD_LIST_CHANGED", -51),
  ("CONTROL_FLOW_STACK_OVERFLOW", -52),
  ("EXCEPTION_STACK_OVERFLOW", -53),
  ("FLOATING_POINT_UNDERFLOW", -54),
  ("FLOATING_POINT_UNIDENTIFIED_FAULT", -55),
  ("QUIT", -56),
  ("EXCEPTION_IN_SENDING_OR_RECEIVING_A_CHARACTER", -57),
  ("BRACKET_IF_ELSE_OR_THEN_EXCEPTION", -58)]

/-- src/exception.rs 132-196 `description`. -/
def description (e : Exn) : String :=
  match e.code with
  | -1 => "Aborted"
  | -2 => "Aborted"
  | -3 => "Stack overflow"
  | -4 => "Stack underflow"
  | -5 => "Return stack overflow"
  | -6 => "Return stack underflow"
  | -7 => "Do-loop nested too deeply"
  | -8 => "Dictionary overflow"
  | -9 => "Invalid memory address"
  | -10 => "Division by zero"
  | -11 => "Result out of range"
  | -12 => "Argument type mismatch"
  | -13 => "Undefined word"
  | -14 => "Interpreting a compile only word"
  | -15 => "Invalid FORGET"
  | -16 => "Attempt to use zero length string"
  | -17 => "Picture numeric output string overflow"
  | -18 => "Parsed string overflow"
  | -19 => "Definition name too long"
  | -20 => "Write to a read only location"
  | -21 => "Unsupported operation"
  | -22 => "Control structure mismatch"
  | -23 => "Address alignment exception"
  | -24 => "Invalid numeric argument"
  | -25 => "Return stack imbalance"
  | -26 => "Loop parameters unavailable"
  | -27 => "Invalid recursion"
  | -28 => "User interrupt"
  | -29 => "Compiler nesting"
  | -30 => "Obsolescent feature"
  | -31 => ">BODY used on non-CREATEd definition"
  | -32 => "Invalid name argument"
  | -33 => "Block read exception"
  | -34 => "Block write exception"
  | -35 => "Invalid block number"
  | -36 => "Invalid file position"
  | -37 => "File I/O exception"
  | -38 => "Non-existent file"
  | -39 => "Unexpected end of file"
  | -40 => "Invalid BASE for floating point conversion"
  | -41 => "Loss of precision"
  | -42 => "Floating point divided by zero"
  | -43 => "Floating point result out of range"
  | -44 => "Floating point stack overflow"
  | -45 => "Floating point stack underflow"
  | -46 => "Floating point invalid argument"
  | -47 => "Compilation word list deleted"
  | -48 => "Invalid POSTPONE"
  | -49 => "Search order overflow"
  | -50 => "Search order underflow"
  | -51 => "Compilation word list changed"
  | -52 => "Control flow stack overflow"
  | -53 => "Exception stack overflow"
  | -54 => "Floating point underflow"
  | -55 => "Floating point unidentified fault"
  | -56 => "QUIT"
  | -57 => "Exception in sending or receiving a character"
  | -58 => "[IF],[ELSE],[THEN] exception"
  | _ => ""

end Verif
