import Verif.Model.Rtf
import Verif.Model.Term

/-!
# The function `main` of the program rtf (rtf/src/main.rs)
-/

namespace Verif

/-- rtf/src/main.rs 328-329, 334-337: what is printed when the program has no arguments. The version is that of
rtf/Cargo.toml 4. -/
def greeting : List Byte :=
  ascii "rtForth v0.6.8, Copyright (C) 2022 Mapacode Inc." ++ [13, 10] ++ ascii "Type 'bye' or press Ctrl-D to exit." ++ [13, 10]

/-- rtf/src/main.rs 296-332 `main`. `free` are the arguments that are not options; with the options `-h` and `-v`, which
are not modelled, nothing is evaluated. The memory has `cap` bytes from `start`. -/
def rtfMain (cfg : Cfg) (depth fuel start cap : Nat) (free : List (List Char)) : Except Fault VM :=
  match VM.rtf cfg depth fuel start cap with
  | .error e => .error e
  | .ok s =>
    match (do
      if free.isEmpty then modVM fun s => { s with stdout := s.stdout ++ greeting } else addArgs free
      repl cfg depth fuel) s with
    | .ok (_, t) => .ok t
    | .error e => .error e

end Verif
