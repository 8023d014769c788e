import Verif.Lemmas.StandLibrary

/-!
# Starting the machine (C67)

src/mock_vm.rs 82-122, src/loader.rs 197-207, core.fth.
-/

namespace Verif
open Spec

/-- **C67.** Wherever the memory is and however much of it there is, if only it is enough: a new machine registers all its
built-in words and loads the text of core.fth to the end without an exception. It is then ready for input, with an empty
data stack and the decimal base. The words that core.fth defines are found under their names, and so are the built-in
words, whose names have not been given to anything else. Their code is what the theorems about them ask for. -/
theorem C67_new (cfg : Cfg) (depth start cap : Nat) (hpos : 0 < start) (halign : start % 16 = 0)
    (hroom : 12288 ≤ cap) (hsmall : start + cap < 2 ^ 63) :
    ∃ s N ix, (∀ fuel, N ≤ fuel → VM.new cfg (depth + 2) fuel start cap = .ok s) ∧ s.ds.start = start ∧ s.ds.cap = cap ∧
      CoreLoaded start ix s := by
  obtain ⟨s, N, h1, h2⟩ := core_loads (b := start) (cap := cap) ⟨hpos, halign, hsmall, hroom⟩ cfg depth
  exact ⟨s, N, imageIx, h1, h2⟩

/-- The hypotheses can be met. -/
example (cfg : Cfg) : ∃ s N ix, (∀ fuel, N ≤ fuel → VM.new cfg 2 fuel 1024 65536 = .ok s) ∧ s.ds.start = 1024 ∧ s.ds.cap = 65536 ∧
    CoreLoaded 1024 ix s := C67_new cfg 0 1024 65536 (by decide) (by decide) (by decide) (by decide)

end Verif
