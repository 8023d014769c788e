import Verif.Model.Basic

/-!
# Words and the word list (src/core.rs 25-188)

Rust stores function pointers in words; the model stores values of the enumerations below, which
`Verif.Model.Exec` maps to the modelled functions.
-/

namespace Verif

/-- Functions of src/core.rs that are the action of some word (table src/core.rs 544-721 and
`define` callers 2296-2400). -/
inductive CorePrim where
  | noop | exit | lit | flit | sQuoteRt | branch | zeroBranch | doRt | qdoRt | loopRt | plusLoopRt
  | unloop | leave | i | j | toR | rFrom | rFetch | twoToR | twoRFrom | twoRFetch
  | compileComma | postponeRt | doesRt
  | execute | dup | drop | swap | over | nip | depth | checkStacks
  | zeroLess | equals | lessThan | invert | and | or | xor | lshift | rshift
  | onePlus | oneMinus | minus | plus | star | slashMod | cellPlus | cells
  | fetch | store | charPlus | here | allot | aligned | align | cFetch | cStore | move
  | base | immediate | compileOnly
  | paren | backslash | leftBracket | bracketTick | bracketChar | semicolon
  | immIf | immElse | immThen | immCase | immOf | immEndof | immEndcase
  | immBegin | immWhile | immRepeat | immUntil | immAgain
  | clearLabels | immLabel | immGoto | immCall | immRecurse | immDo | immQdo | immLoop | immPlusLoop
  | postpone | does
  | pTrue | pFalse | zeroEquals | zeroGreater | zeroNotEquals | greaterThan | notEquals | within
  | rot | minusRot | pick | twoDup | twoDrop | twoSwap | twoOver
  | slash | mod | abs | negate
  | parseWord | char | skip | parse | colon | constant | create | tick | toBody | toName
  | rightBracket | comma | marker | handlerStore | error | dotError | clearError | clearStacks
  | reset | abort | compiling | tokenEmpty | dotToken | storeToken | compileToken | interpretToken
  | sourceId | setSourceId | sourceIdx | setSourceIdx | bye
  | pause | activate | me | suspend | resume
  -- actions of defined words
  | nest | pVar | pConst | unmark | doesAction
  deriving DecidableEq, Repr

/-- Functions of src/output.rs. -/
inductive OutPrim where
  | emit | type | sQuote | dotQuote | dotParen | dotR | fdotR | flushOutput
  deriving DecidableEq, Repr

/-- Functions of src/tools.rs. -/
inductive ToolPrim where
  | words | dotWord | dotBacktrace | dotS | dotMemory | setXtime | dotXtime | clearXtime
  | dotInput | flushToErr
  deriving DecidableEq, Repr

/-- Functions of src/env.rs and src/facility.rs. -/
inductive EnvPrim where
  | maxN | maxU | mtime | utime
  deriving DecidableEq, Repr

/-- Functions of src/float.rs; `pFconst` is the action of words made by `fconstant`. -/
inductive FloatPrim where
  | fconstant | floatPlus | floats | faligned | falign | pi | fstore | ffetch | fabs
  | fsin | fcos | ftan | fsincos | fasin | facos | fatan | fatan2 | fsqrt
  | fdrop | fdup | fswap | fnip | fover | frot | fpick | sToF | fToS
  | fplus | fminus | fstar | fslash | fpowf | fproximate | fZeroLess | fZeroEquals | fLess
  | fmin | fmax | floor | fround | fceil | fnegate
  | pFconst
  deriving DecidableEq, Repr

/-- Functions of src/units.rs. -/
inductive UnitPrim where
  | meter | mm | um | deg | rad | hr | minute | sec | msec | usec | mmPerMin | mmPerSec
  | umPerMsec | rpm | hertz
  deriving DecidableEq, Repr

/-- Functions of src/file_access.rs. -/
inductive FilePrim where
  | fileSize | filePosition | closeFile | createFile | deleteFile | openFile | readFile | writeFile
  | resizeFile | repositionFile
  deriving DecidableEq, Repr

/-- Functions of src/loader.rs. -/
inductive LoadPrim where
  | openSource | closeSource | dotSourcePath | loadLine | dotSourceLine
  deriving DecidableEq, Repr

/-- `action: fn(&mut Target)` of a word (src/core.rs 35). -/
inductive Prim where
  | core (p : CorePrim)
  | out (p : OutPrim)
  | tool (p : ToolPrim)
  | env (p : EnvPrim)
  | flt (p : FloatPrim)
  | unit (p : UnitPrim)
  | file (p : FilePrim)
  | load (p : LoadPrim)
  | receive
  deriving DecidableEq, Repr

/-- `compilation_semantics: fn(&mut Target, usize)` of a word (src/core.rs 36): `compile_word` and
the functions that only call it (831-857), or `compile_leave` (1069). -/
inductive CompSem where
  | word
  | leave
  deriving DecidableEq, Repr

/-- src/core.rs 26-41 `Word`. -/
structure Word where
  isImmediate : Bool
  isCompileOnly : Bool
  hidden : Bool
  link : Nat
  hash : BitVec 32
  nfa : Nat
  dfa : Nat
  doer : Nat
  action : Prim
  compSem : CompSem
  minTime : Nat
  maxTime : Nat
  deriving DecidableEq, Repr

/-- src/core.rs 44-64 `Word::new`. -/
def Word.new (action : Prim) (compSem : CompSem) (nfa dfa : Nat) : Word :=
  { isImmediate := false, isCompileOnly := false, hidden := false, link := 0, hash := 0,
    nfa := nfa, dfa := dfa, doer := 0, action := action, compSem := compSem,
    minTime := 0, maxTime := 0 }

/-- src/core.rs 106-111 `Wordlist`; `BUCKET_SIZE` = 64 (line 103). `buckets` and `temp_buckets` are
arrays indexed by `0..64`. -/
structure Wordlist where
  words : List Word
  buckets : Fin 64 → Nat
  tempBuckets : Fin 64 → Nat
  last : Nat

namespace Wordlist

/-- src/core.rs 115-122 `with_capacity`. -/
def empty : Wordlist := { words := [], buckets := fun _ => 0, tempBuckets := fun _ => 0, last := 0 }

/-- One step of src/core.rs 135-139. -/
def hashStep (h : BitVec 32) (c : Byte) : BitVec 32 :=
  (h <<< 5) + h + (lowerByte c).setWidth 32

/-- src/core.rs 132-141 `hash`. -/
def hash (name : List Byte) : BitVec 32 := name.foldl hashStep 5381

/-- `hash as usize % BUCKET_SIZE`. -/
def bucketOf (h : BitVec 32) : Fin 64 := ⟨h.toNat % 64, Nat.mod_lt _ (by decide)⟩

/-- src/core.rs 144-151 `push`. -/
def push (wl : Wordlist) (name : List Byte) (w : Word) : Wordlist :=
  let h := hash name
  let b := bucketOf h
  let w := { w with hash := h, link := wl.buckets b }
  { wl with
    words := wl.words ++ [w]
    last := wl.words.length
    buckets := fun x => if x = b then wl.words.length else wl.buckets x }

/-- Binary search, `slice::binary_search_by` on `nfa` (src/core.rs 161): the standard bisection,
`Ok i` for an equal element, `Err i` for the insertion point. `size` is the length of the part of
the slice still searched, `lo` its left end. The exact probe sequence of the standard library is
unspecified; for a list with strictly increasing name addresses the result does not depend on it. -/
def bsearch (ws : List Word) (addr : Nat) (lo size : Nat) : Except Nat Nat :=
  if _h : size = 0 then .error lo
  else
    let mid := lo + size / 2
    match ws[mid]? with
    | none => .error lo
    | some w =>
      if w.nfa = addr then .ok mid
      else if w.nfa < addr then bsearch ws addr (mid + 1) (size - size / 2 - 1)
      else bsearch ws addr lo (size / 2)
  termination_by size

/-- src/core.rs 160-172 `find_xt`. -/
def findXt (wl : Wordlist) (addr : Nat) : Option Nat :=
  match bsearch wl.words addr 0 wl.words.length with
  | .ok xt => some xt
  | .error xt => if xt = 0 then none else some (xt - 1)

end Wordlist
end Verif
