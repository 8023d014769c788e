import Verif.Lemmas.Booted
import Verif.Spec.Session

/-!
# A machine with the words of rtf/rtf.fth

The machine of `Image` with the code of `quit` and `(abort)`, as rtf/rtf.fth 3-19 compiles it, behind that of core.fth. In place of `receive`,
which waits for the terminal, it has a word that does nothing: the line was typed already. The headers of the words, which the image does not have,
are without names.
-/

namespace Verif
open Spec

/-- The code from 12224 on, 64 bytes in each number, least significant first. -/
def replRows : List Nat := [
  0x84000000000000013d000000000000009500000000000000200000000000000001000000000000000500000000000001440000000000000082,
  0x3000000000000009500000000006b6f200000000000000003000000000000000500000000000030380000000000000007000000000000005e,
  0x7e000000000000008100000000000000020000000000002fc80000000000000006000000000000009b0000000000000094000000000000000d,
  0x32100000000000000007000000000000005e000000000000006400000000000000010000000000000003fffffffffffffffe0000000000000003,
  0x1a00000000000031c80000000000000007000000000000001a000000000000008a000000000000007f00000000000000f60000000000000086,
  0x3a0000000000000001000000000000000500000000000000f00000000000000095000000000000282000000000000000020000000000000005,
  0x200000000000000050000000000000099000000000000000000000000000000030000000000000032000000000000013e0000000000000095,
  0x6000000000000009500000000000000290000000000000001000000000000000500000000000000f20000000000000095000000000000203a,
  0x3000000000000009e0000000000000095000000000000202c00000000000000020000000000000005000000000000001b00000000000031d0,
  0x200000000000001450000000000000080000000000000009b0000000000000094000000000000000d]

/-- The machine. -/
def replImage : VM := { image with
  ds := { bytes := fun a => if a < 12224 then image.ds.bytes a else BitVec.ofNat 8 ((replRows.getD ((a - 12224) / 64) 0) >>> (8 * ((a - 12224) % 64)))
          start := 1024, cap := 65536, len := 11824 }
  wl := { words := (imageWords ++ [(Prim.core .noop, 0, 0), (Prim.core .nest, 12224, 0), (Prim.core .nest, 12400, 0)]).mapIdx
            fun i (e : Prim × Nat × Nat) => { Word.new e.1 .word 0 e.2.1 with doer := e.2.2, nfa := 1040 + 8 * i }
          buckets := fun _ => 0, tempBuckets := fun _ => 0, last := 326 }
  handler := 326
  tkn := some []
  outbuf := some [] }

/-- The numbers of some words. -/
def replIx (name : String) : Nat := ([
   ("type", 149), ("reset", 130), ("0stacks", 129), ("error", 126), ("within", 100), (".token", 134), (".error", 127),
   (".source-path", 240), (".r", 153), (".source-line", 242), (".backtrace", 158), ("0error", 128), ("receive", 324),
   ("quit", 325), ("(abort)", 326)].lookup name).getD (imageIx name)

def replB (s : VM) : Bool :=
  decide (s.ds.start = 1024) && decide (s.ds.cap = 65536) && runtimeB s.refs (replIx "leave") s.wl &&
  usesB s.wl replIx libraryUses && codedB s.refs (replIx "leave") s.wl 5184 7408 s.ds replIx (library replIx) &&
  usesB s.wl replIx readerUses && codedB s.refs (replIx "leave") s.wl 10984 11144 s.ds replIx (readerCode replIx) &&
  usesB s.wl replIx replUses && codedB s.refs (replIx "leave") s.wl 12224 12848 s.ds replIx (replCode replIx) &&
  (match s.wl.words[replIx "load-line#"]? with
    | some w => decide (w.action = .core .pVar) && decide (w.dfa = 11144)
    | none => false)

set_option maxRecDepth 100000 in
theorem replImage_replB : replB replImage = true := by decide +kernel

theorem replB_hasRepl {s : VM} (h : replB s = true) :
    HasRepl (replIx "leave") (5184, 7408) (10984, 11144) (12224, 12848) 11144 replIx s := by
  simp only [replB, Bool.and_eq_true, decide_eq_true_eq] at h
  obtain ⟨⟨⟨⟨⟨⟨⟨⟨⟨h1, h2⟩, h4⟩, h5⟩, h6⟩, h7⟩, h8⟩, h9⟩, h10⟩, h11⟩ := h
  refine ⟨⟨runtimeB_runtime h4, ⟨by omega, by omega, by omega⟩, usesB_uses h5, codedB_coded h6⟩,
    ⟨runtimeB_runtime h4, ⟨by omega, by omega, by omega⟩, usesB_uses h7, codedB_coded h8⟩, ⟨by omega, by omega, by omega⟩, usesB_uses h9,
    codedB_coded h10, ?_, by omega, by simp only [DataSpace.limit]; omega⟩
  split at h11
  · rename_i w hw
    simp only [Bool.and_eq_true, decide_eq_true_eq] at h11
    exact ⟨w, hw, h11.1, h11.2⟩
  · cases h11

theorem replImage_hasRepl : HasRepl (replIx "leave") (5184, 7408) (10984, 11144) (12224, 12848) 11144 replIx replImage :=
  replB_hasRepl replImage_replB

def namesB (s : VM) : Bool :=
  s.wl.words.all fun w => decide (s.ds.start ≤ w.nfa) && decide (w.nfa + 8 + (s.ds.cellAt w.nfa).toNat ≤ s.ds.limit)

set_option maxRecDepth 100000 in
theorem replImage_namesB : namesB replImage = true := by decide +kernel

theorem namesB_traceable {s : VM} (h : namesB s = true) (hwl : s.wl = replImage.wl) (hs : s.ds.limit < 2 ^ 63) : Traceable s := by
  rw [namesB, List.all_eq_true] at h
  refine ⟨hs, fun i w hw => ?_, fun i w hw => ?_, fun i j v w hij hv hw => ?_⟩
  · have := h w (List.mem_of_getElem? hw)
    simp only [Bool.and_eq_true, decide_eq_true_eq] at this
    exact this.1
  · have := h w (List.mem_of_getElem? hw)
    simp only [Bool.and_eq_true, decide_eq_true_eq] at this
    exact this.2
  · have key : ∀ (i : Nat) (v : Word), replImage.wl.words[i]? = some v → v.nfa = 1040 + 8 * i := by
      intro i v hv
      simp only [replImage, List.getElem?_mapIdx, Option.map_eq_some_iff] at hv
      obtain ⟨e, -, rfl⟩ := hv
      rfl
    rw [hwl] at hv hw
    rw [key i v hv, key j w hw]
    omega

theorem replImage_traceable : Traceable replImage := namesB_traceable replImage_namesB rfl (by decide)

/-- The machine while it includes a file. The source being read before, the terminal, is saved. -/
def replIncluding : VM :=
  { replImage.setTask { replImage.task with
      sources := [some ⟨⟨0, 0, true, false⟩, ascii "a.fth"⟩], lines := [some "foo".toList], st := { replImage.task.st with sourceId := 1 } } with
    ds := replImage.ds.setCell 10272 1 }

set_option maxRecDepth 100000 in
theorem replIncluding_replB : replB replIncluding = true := by decide +kernel

set_option maxRecDepth 100000 in
theorem replIncluding_namesB : namesB replIncluding = true := by decide +kernel

theorem replIncluding_saved : Saved replIncluding.ds 10264 [(0, 0)] := by
  refine ⟨by decide, by decide +kernel, by decide +kernel, fun i e he => ?_⟩
  have hi : i < 1 := by simpa using (List.getElem?_eq_some_iff.mp he).1
  have : i = 0 := by omega
  subst this
  cases he
  decide +kernel

end Verif
