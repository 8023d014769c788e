import Verif.Spec.Does
import Verif.Spec.Facility
import Verif.Spec.Loader

/-!
# The machine when core.fth has been loaded
-/

namespace Verif.Spec
open Verif

/-- The names of the words that the theorems about core.fth speak of: built-in words, and words that core.fth
defines. -/
def coreNames : List String :=
  libraryUses ++ sourceUses ++ readerUses ++ loaderUses ++ doesUses ++ facilityUses ++
  (library fun _ => 0).map (·.1) ++ (sourceCode fun _ => 0).map (·.1) ++ (readerCode fun _ => 0).map (·.1) ++
  (loaderCode fun _ => 0).map (·.1) ++ ["2constant", "+field", "defer", "get", "release", "src-stack", "load-line#", "r/o", "[", "leave"]

/-- core.fth has been loaded. Distances are from `b`, the beginning of the memory if there are no other built-in words
than those of src/mock_vm.rs. The word with the name `n` is the one with the number
`ix n`. The words that core.fth defines have the code that the theorems about them ask for, and all of it is where it
is written here. -/
structure CoreLoaded (b : Nat) (ix : String → Nat) (s : VM) : Prop where
  listening : Listening s
  decimal : baseOf s = 10
  empty : s.task.s.items = []
  names : ∀ n, n ∈ coreNames → Newest s (ascii n) (some (ix n))
  loader : HasLoader (ix "leave") (b + 4160, b + 7032) (b + 9536, b + 9960) (b + 9960, b + 10120) (b + 10152, b + 10520) (b + 9240)
    (b + 10120) ix s
  saved : Saved s.ds (b + 9240) []
  definers : HasDefiners (ix "leave") (b + 4160) (b + 7032) ix s
  facilities : HasFacilities (ix "leave") (b + 8512) (b + 8728) (b + 8512) (b + 8616) ix s

end Verif.Spec
