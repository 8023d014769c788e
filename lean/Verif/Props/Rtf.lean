import Verif.Lemmas.StandRtf

/-!
# The program rtf (C68)

rtf/src/main.rs, rtf/rtf.fth.
-/

namespace Verif
open Spec

/-- **C68.** Wherever the memory is, and however much of it there is, if only it is enough: the machine of the program rtf
registers all its built-in words and `receive`, and loads core.fth and rtf.fth to the end without an exception. The
marker with which rtf.fth begins does not take away anything that core.fth defined. The words of both texts are found
under their names, and their code is what the theorems about them ask for. Nothing was printed, and the user was not asked for anything. -/
theorem C68_start (cfg : Cfg) (depth start cap : Nat) (hpos : 0 < start) (halign : start % 16 = 0)
    (hroom : 12288 ≤ cap) (hsmall : start + cap < 2 ^ 63) :
    ∃ s N ix, (∀ fuel, N ≤ fuel → VM.rtf cfg (depth + 2) fuel start cap = .ok s) ∧ s.ds.start = start ∧ s.ds.cap = cap ∧
      RtfLoaded start ix [] s ∧ s.stdout = [] ∧ s.host.calls = 0 ∧ ∃ line, s.task.inbuf = some line ∧ byteLen line < 2 ^ 32 := by
  obtain ⟨s, N, h1, h2⟩ := rtf_loads (b := start) (cap := cap) ⟨hpos, halign, hsmall, hroom⟩ cfg depth
  exact ⟨s, N, rtfIx, h1, h2⟩

/-- The hypotheses can be met. -/
example (cfg : Cfg) : ∃ s N ix, (∀ fuel, N ≤ fuel → VM.rtf cfg 2 fuel 1024 65536 = .ok s) ∧ s.ds.start = 1024 ∧ s.ds.cap = 65536 ∧
    RtfLoaded 1024 ix [] s := by
  obtain ⟨s, N, ix, h1, h2, h3, h4, -⟩ := C68_start cfg 0 1024 65536 (by decide) (by decide) (by decide) (by decide)
  exact ⟨s, N, ix, h1, h2, h3, h4⟩

end Verif
