import Verif.Spec.Change

/-!
# The dictionary

What it means for a name to be found, and what it means for the word list, with its hash chains and the
names and marker data in the data space, to be in order.
-/

namespace Verif.Spec
open Verif

/-- Two bytes are the same letter, in whatever case, or the same byte. -/
def SameLetter (a b : Byte) : Prop :=
  a = b ∨ (65 ≤ a.toNat ∧ a.toNat ≤ 90 ∧ b.toNat = a.toNat + 32) ∨
    (65 ≤ b.toNat ∧ b.toNat ≤ 90 ∧ a.toNat = b.toNat + 32)

/-- Two names are the same up to the case of ASCII letters. -/
def SameName (a b : List Byte) : Prop :=
  a.length = b.length ∧ ∀ (i : Nat) (x y : Byte), a[i]? = some x → b[i]? = some y → SameLetter x y

/-- The name of a word: the text in the data space its name address points to. -/
def nameIn (d : DataSpace) (w : Word) : List Byte := d.bytesAt (w.nfa + 8) (d.cellAt w.nfa).toNat

/-- Word `i` can be found under a name. Word 0 never can. -/
def Visible (s : VM) (name : List Byte) (i : Nat) : Prop :=
  1 ≤ i ∧ ∃ w, s.wl.words[i]? = some w ∧ w.hidden = false ∧ SameName (nameIn s.ds w) name

/-- The newest visible word of a name. -/
def Newest (s : VM) (name : List Byte) : Option Nat → Prop
  | some i => Visible s name i ∧ ∀ j, i < j → ¬ Visible s name j
  | none => ∀ j, ¬ Visible s name j

/-- The newest of the first `n` words in hash bucket `b`, 0 if there is none. -/
def newestIn (ws : List Word) (b : Fin 64) : Nat → Nat
  | 0 => 0
  | n + 1 =>
    match ws[n]? with
    | some w => if Wordlist.bucketOf w.hash = b then n else newestIn ws b n
    | none => newestIn ws b n

/-- The number of bytes a marker keeps after its header: 65 cells. -/
def reserve (w : Word) : Nat := if w.action = .core .unmark then 520 else 0

/-- The dictionary is in order. -/
structure Dict (s : VM) : Prop where
  last : s.wl.last = s.wl.words.length - 1
  /-- Every name is in the data space, before the word's data. -/
  low : ∀ (i : Nat) w, s.wl.words[i]? = some w → s.ds.start ≤ w.nfa
  high : ∀ (i : Nat) w, s.wl.words[i]? = some w → w.nfa + 8 + (s.ds.cellAt w.nfa).toNat ≤ w.dfa
  /-- Every word's hash is the hash of its name. -/
  hash : ∀ (i : Nat) w, s.wl.words[i]? = some w → w.hash = Wordlist.hash (nameIn s.ds w)
  /-- Every word links to the newest older word of its bucket, and buckets start with the newest. -/
  link : ∀ (i : Nat) w, s.wl.words[i]? = some w →
    w.link = newestIn s.wl.words (Wordlist.bucketOf w.hash) i
  buckets : ∀ b, s.wl.buckets b = newestIn s.wl.words b s.wl.words.length
  /-- Words lie one after the other, below `here`. -/
  apart : ∀ (i j : Nat) v w, i < j → s.wl.words[i]? = some v → s.wl.words[j]? = some w →
    v.dfa + reserve v ≤ w.nfa
  top : ∀ (i : Nat) w, s.wl.words[i]? = some w → w.dfa + reserve w ≤ s.ds.here
  /-- Markers hold the number of the word before them and the buckets as they were. -/
  marks : ∀ (i : Nat) w, s.wl.words[i]? = some w → w.action = .core .unmark →
    1 ≤ i ∧ s.ds.cellAt w.dfa = toCell (i - 1) ∧
      ∀ b : Fin 64, s.ds.cellAt (w.dfa + 8 * (b.val + 1)) = toCell (newestIn s.wl.words b i)

/-- The bytes the dictionary needs are as they were: names and the data of markers. -/
def Intact (s t : VM) : Prop :=
  ∀ (i : Nat) w, s.wl.words[i]? = some w →
    (∀ x, w.nfa ≤ x → x < w.nfa + 8 + (s.ds.cellAt w.nfa).toNat → t.ds.bytes x = s.ds.bytes x) ∧
    (w.action = .core .unmark → ∀ x, w.dfa ≤ x → x < w.dfa + 520 → t.ds.bytes x = s.ds.bytes x) ∧
    w.dfa + reserve w ≤ t.ds.here

/-- What may happen to the hidden flag of the last word. -/
inductive Hiding
  | same
  | hide
  | reveal
  | any

/-- The new flag is possible, given the old one. -/
def Hiding.ok : Hiding → Bool → Bool → Prop
  | .same, a, b => b = a
  | .hide, a, b => a = true → b = true
  | .reveal, a, b => b = true → a = true
  | .any, _, _ => True

/-- What may happen to the hidden flag of the last word, and whether memory below `here` may be written
or given back. -/
structure Flags where
  mask : Hiding
  writes : Bool

/-- The new hidden flag is possible, given the old one. -/
def Flags.ok (b : Flags) : Bool → Bool → Prop := b.mask.ok

def Flags.same : Flags := ⟨.same, false⟩
def Flags.hide : Flags := ⟨.hide, false⟩
def Flags.reveal : Flags := ⟨.reveal, false⟩
def Flags.any : Flags := ⟨.any, true⟩

/-- The same words: all but word `l` are the same up to their execution times; word `l` may have other
flags and may have got its behaviour from `does>`; `b` tells what may happen to its hidden flag. -/
def SameWords (b : Flags) (l : Nat) (ws vs : List Word) : Prop :=
  vs.length = ws.length ∧ ∀ (i : Nat) v w, vs[i]? = some v → ws[i]? = some w →
    (v.link = w.link ∧ v.hash = w.hash ∧ v.nfa = w.nfa ∧ v.dfa = w.dfa ∧
      (v.action = w.action ∨ v.action = .core .doesAction)) ∧
    b.ok w.hidden v.hidden ∧ (i ≠ l → ∃ a b, v = { w with minTime := a, maxTime := b })

/-- The ways the dictionary may change. -/
inductive Edit (b : Flags) (s t : VM) : Prop
  /-- No word comes or goes. The flags and the behaviour of the last word may change, its hidden flag as
  `b` tells. -/
  | keep (start : t.ds.start = s.ds.start) (intact : Intact s t) (last : t.wl.last = s.wl.last)
      (buckets : t.wl.buckets = s.wl.buckets) (words : SameWords b s.wl.last s.wl.words t.wl.words)
      (code : b.writes = false → s.ds.here ≤ t.ds.here ∧ ∀ x, x < s.ds.here → t.ds.bytes x = s.ds.bytes x)
  /-- One word is added, above everything else. Only `:` adds it hidden. -/
  | add (name : List Byte) (w : Word) (start : t.ds.start = s.ds.start)
      (wl : t.wl = { s.wl.push name w with tempBuckets := t.wl.tempBuckets })
      (below : ∀ x, x < s.ds.here → t.ds.bytes x = s.ds.bytes x)
      (nfa : w.nfa = s.ds.here) (dfa : w.nfa + 8 + (t.ds.cellAt w.nfa).toNat ≤ w.dfa)
      (named : nameIn t.ds w = name) (here : w.dfa + reserve w ≤ t.ds.here) (shown : b.ok false w.hidden)
      (mark : w.action = .core .unmark → 1 ≤ s.wl.words.length ∧
        t.ds.cellAt w.dfa = toCell (s.wl.words.length - 1) ∧
        ∀ b : Fin 64, t.ds.cellAt (w.dfa + 8 * (b.val + 1)) = toCell (s.wl.buckets b))
  /-- Marker `k` is run: it and all newer words go, and all memory from its name on is free again. -/
  | forget (k : Nat) (w : Word) (start : t.ds.start = s.ds.start) (bytes : t.ds.bytes = s.ds.bytes)
      (marker : s.wl.words[k]? = some w) (action : w.action = .core .unmark)
      (words : t.wl.words = s.wl.words.take k) (last : t.wl.last = k - 1)
      (buckets : ∀ b, t.wl.buckets b = newestIn s.wl.words b k) (here : t.ds.here = w.nfa)

/-- What a word may do to the hidden flag of the last word: `:` hides it, `;` shows it. -/
def hidingOf : Prim → Hiding
  | .core .colon => .hide
  | .core .semicolon => .reveal
  | _ => .same

/-- What a word may do to the hidden flag of the last word and to memory. -/
def flagsOf (p : Prim) : Flags :=
  ⟨hidingOf p, decide (.memWrite ∈ footprint p ∨ .memHere ∈ footprint p ∧ p ≠ .core .unmark)⟩

/-- The kinds of change that leave words and memory alone, but for appending and saved buckets. -/
def plainKinds : List Kind :=
  [.dataStack, .returnStack, .controlStack, .floatStack, .mode, .ip, .wp, .abortedWp, .sourceIndex,
   .sourceId, .inputText, .inputSlot, .fileOpen, .fileUse, .fileClose, .sourceOpen,
   .sourceClose, .sourceRead, .raise, .clear,
   .token, .output, .holdBuffer, .labelSets, .labelTable, .host, .hostCall, .standardOut,
   .standardError, .memAppend, .savedBuckets, .awake, .switch, .activate]

/-- The error handler, if it runs, leaves words and memory alone, but for appending. This holds for the
default handler, and for handlers that only prepare to run a definition. -/
def QuietHandler (c : Ctx) (s : VM) : Prop :=
  ∃ A : Inv (.memWrite :: plainKinds), A.holds s ∧
    ∀ x a y, Fit A x → runHandler c x = .ok (a, y) → Changes plainKinds x y

/-- The kinds of change that leave words, `here` and memory below `here` alone. -/
def freeKinds : List Kind :=
  [.dataStack, .returnStack, .controlStack, .floatStack, .mode, .ip, .wp, .abortedWp, .sourceIndex,
   .sourceId, .inputText, .inputSlot, .fileOpen, .fileUse, .fileClose, .sourceOpen,
   .sourceClose, .sourceRead, .raise, .clear,
   .token, .output, .holdBuffer, .labelSets, .labelTable, .host, .hostCall, .standardOut,
   .standardError, .memAppend, .wordTime, .savedBuckets, .awake, .switch, .activate,
   .handler, .refs, .clock]

/-- Words run one after the other, in any number, by whatever program. Word `i` is run on its own account;
words that run another word (`execute`, the evaluation of a token) count as free changes of the machine,
such as taking the token from the stack, followed by running the word. The machine keeps more than `k`
words, and runs only words with property `P`. A word that writes to memory at will, or moves `here` at will, must leave the names and the data of
markers alone. -/
inductive Orderly (cfg : Cfg) (k : Nat) (P : Prim → Prop) : VM → VM → Prop
  | refl (s : VM) : k < s.wl.words.length → Orderly cfg k P s s
  | run {s t u : VM} {w : Word} {depth i : Nat} {x : Unit} : Orderly cfg k P s t →
      t.wl.words[i]? = some w → P w.action → executes w.action = false →
      (raises w.action = true → QuietHandler (ctx cfg depth) t) →
      (.memWrite ∈ footprint w.action ∨ .memHere ∈ footprint w.action ∧ w.action ≠ .core .unmark →
        Intact t u) →
      execWord cfg (depth + 1) i t = .ok (x, u) → k < u.wl.words.length → Orderly cfg k P s u
  | free {s t u : VM} : Orderly cfg k P s t → Changes freeKinds t u → Orderly cfg k P s u

end Verif.Spec
