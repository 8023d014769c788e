import Verif.Spec.Reach

/-!
# The exceptions of Forth-2012
-/

namespace Verif.Spec
open Verif

/-- Forth-2012, table 9.1: the codes reserved, with their meaning. -/
def standard : List (Int × String) := [
  (-1, "ABORT"),
  (-2, "ABORT\""),
  (-3, "stack overflow"),
  (-4, "stack underflow"),
  (-5, "return stack overflow"),
  (-6, "return stack underflow"),
  (-7, "do-loops nested too deeply during execution"),
  (-8, "dictionary overflow"),
  (-9, "invalid memory address"),
  (-10, "division by zero"),
  (-11, "result out of range"),
  (-12, "argument type mismatch"),
  (-13, "undefined word"),
  (-14, "interpreting a compile-only word"),
  (-15, "invalid FORGET"),
  (-16, "attempt to use zero-length string as a name"),
  (-17, "pictured numeric output string overflow"),
  (-18, "parsed string overflow"),
  (-19, "definition name too long"),
  (-20, "write to a read-only location"),
  (-21, "unsupported operation"),
  (-22, "control structure mismatch"),
  (-23, "address alignment exception"),
  (-24, "invalid numeric argument"),
  (-25, "return stack imbalance"),
  (-26, "loop parameters unavailable"),
  (-27, "invalid recursion"),
  (-28, "user interrupt"),
  (-29, "compiler nesting"),
  (-30, "obsolescent feature"),
  (-31, ">BODY used on non-CREATEd definition"),
  (-32, "invalid name argument"),
  (-33, "block read exception"),
  (-34, "block write exception"),
  (-35, "invalid block number"),
  (-36, "invalid file position"),
  (-37, "file I/O exception"),
  (-38, "non-existent file"),
  (-39, "unexpected end of file"),
  (-40, "invalid BASE for floating point conversion"),
  (-41, "loss of precision"),
  (-42, "floating-point divide by zero"),
  (-43, "floating-point result out of range"),
  (-44, "floating-point stack overflow"),
  (-45, "floating-point stack underflow"),
  (-46, "floating-point invalid argument"),
  (-47, "compilation word list deleted"),
  (-48, "invalid POSTPONE"),
  (-49, "search-order overflow"),
  (-50, "search-order underflow"),
  (-51, "compilation word list changed"),
  (-52, "control-flow stack overflow"),
  (-53, "exception stack overflow"),
  (-54, "floating-point underflow"),
  (-55, "floating-point unidentified fault"),
  (-56, "QUIT"),
  (-57, "exception in sending or receiving a character"),
  (-58, "[IF], [ELSE], or [THEN] exception")]

/-- The letters of a text, in lower case. -/
def letters (t : String) : List Char := (t.toList.filter Char.isAlpha).map Char.toLower

/-- Constants that are not named with the very words of the standard. -/
def paraphrases : List (String × String) := [
  ("ABORT_QUOTE", "ABORT\""),
  ("DO_LOOP_NESTED_TOO_DEEPLY", "do-loops nested too deeply during execution"),
  ("ATTEMPT_TO_USE_ZERO_LENGTH_STRING", "attempt to use zero-length string as a name"),
  ("TO_BODY_USED_ON_NON_CREATED_DEFINITION", ">BODY used on non-CREATEd definition"),
  ("FLOATING_POINT_DIVIDED_BY_ZERO", "floating-point divide by zero"),
  ("FILE_IO_EXCEPTION", "file I/O exception"),
  ("BRACKET_IF_ELSE_OR_THEN_EXCEPTION", "[IF], [ELSE], or [THEN] exception")]

/-- Descriptions that are not the very words of the standard. -/
def restated : List (String × String) := [
  ("Aborted", "ABORT"),
  ("Aborted", "ABORT\""),
  ("Do-loop nested too deeply", "do-loops nested too deeply during execution"),
  ("Attempt to use zero length string", "attempt to use zero-length string as a name"),
  ("Picture numeric output string overflow", "pictured numeric output string overflow"),
  ("Floating point divided by zero", "floating-point divide by zero"),
  ("[IF],[ELSE],[THEN] exception", "[IF], [ELSE], or [THEN] exception")]

end Verif.Spec
