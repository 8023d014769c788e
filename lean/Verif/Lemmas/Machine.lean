import Verif.Props.Boot
import Verif.Lemmas.Run

/-!
# A machine with the words that programs need, and some input

Used in the examples beside theorems about programs.
-/

namespace Verif
open Spec

/-- Some of the words written in Rust. -/
def smallTable : List Entry :=
  ["", "noop", "exit", "lit", "flit", "0branch", "branch", "_do", "_qdo", "_loop", "_+loop", "_s\"", "over", "=",
   "drop", "leave", ":", ";", "dup", "*", "swap", "+", "1+", "?do", "do", "i", "loop", "+loop", "if", "else", "then",
   "begin", "until", "again", "while", "repeat", "s\"", "@", "!", "marker", "pause", "me", "base",
   "create", "does>", "_does", ">r", "r>", "(", "\\", "immediate", "compile-only", "abort"].filterMap
    fun n => allEntries.find? (·.name == n)

/-- The numbers of the words the compiler uses. -/
def smallRefs : Refs :=
  { exit := 2, lit := 3, flit := 4, zeroBranch := 5, branch := 6, doRt := 7, qdoRt := 8, loopRt := 9,
    plusLoopRt := 10, sQuote := 11, over := 12, equal := 13, drop := 14, doesRt := 45, toR := 46 }

def smallLoad : M Unit := do
  addTable (ctx demoCfg 2) smallTable
  patchCompSem (ctx demoCfg 2)

/-- The machine with these words. -/
def smallBase : VM := { after smallLoad (VM.blank 1024 65536) with refs := smallRefs }

theorem smallLoads : succeeds smallLoad (VM.blank 1024 65536) = true := by decide +kernel

/-- A machine with some input. -/
def typing (s : VM) (text : List Char) : VM := s.setTask { s.task with inbuf := some text }

/-- Listening, as far as it can be computed. -/
def listeningB (s : VM) : Bool :=
  !s.task.st.isCompiling && s.lastError.isNone && s.tkn.isSome &&
  (decide (pc s < s.ds.start) || decide (s.ds.limit < pc s + 8)) && decide (pc s + 8 < 2 ^ 64) &&
  decide (0 < s.ds.start) && s.ds.start % 16 == 0 && decide (s.ds.start + s.ds.cap < 2 ^ 63) &&
  decide (16 ≤ s.ds.len) && decide (s.ds.len ≤ s.ds.cap) &&
  decide (s.task.s.items.length ≤ 64) && s.task.s.inner 64 == s.task.s.canary && s.task.s.inner 255 == s.task.s.canary &&
  decide (s.task.r.items.length ≤ 64) && s.task.r.inner 64 == s.task.r.canary && s.task.r.inner 255 == s.task.r.canary &&
  decide (s.task.f.items.length ≤ 64) && s.task.f.inner 64 == s.task.f.canary && s.task.f.inner 255 == s.task.f.canary &&
  s.task.c.items == [] && s.task.c.inner 64 == s.task.c.canary && s.task.c.inner 255 == s.task.c.canary &&
  s.forward == []

theorem listeningB_spec {s : VM} (h : listeningB s = true) (hd : Dict s) : Listening s := by
  simp only [listeningB, Bool.and_eq_true, Bool.or_eq_true, decide_eq_true_eq, beq_iff_eq, Bool.not_eq_true',
    Option.isNone_iff_eq_none] at h
  obtain ⟨⟨⟨⟨⟨⟨⟨⟨⟨⟨⟨⟨⟨⟨⟨⟨⟨⟨⟨⟨⟨⟨a1, a2⟩, a3⟩, a4⟩, a5⟩, a6⟩, a7⟩, a8⟩, a9⟩, a10⟩, b1⟩, b2⟩, b3⟩, c1⟩, c2⟩, c3⟩,
    d1⟩, d2⟩, d3⟩, e1⟩, e2⟩, e3⟩, f1⟩ := h
  exact ⟨a1, a2, a3, ⟨a4, a5⟩, hd, ⟨a6, a7, a8, a9, a10⟩, ⟨b1, b2, b3⟩, ⟨c1, c2, c3⟩, ⟨d1, d2, d3⟩,
    ⟨by rw [e1]; exact Nat.zero_le _, e2, e3⟩, e1, f1⟩

/-- The words the compiler uses, as far as it can be computed. -/
def compilerB (R : Refs) (lv : Nat) (wl : Wordlist) : Bool :=
  decide (wl.words.length ≤ 2 ^ 64) &&
  (roles R lv).all (fun r => (wl.words[r.1]?.map (·.action)) == some (.core r.2)) &&
  (wl.words[R.exit]?.map (·.compSem)) == some .word && (wl.words[R.sQuote]?.map (·.compSem)) == some .word &&
  (wl.words[lv]?.map (·.compSem)) == some .leave

theorem compilerB_spec {R : Refs} {lv : Nat} {wl : Wordlist} (h : compilerB R lv wl = true) : Compiler R lv wl := by
  simp only [compilerB, Bool.and_eq_true, decide_eq_true_eq, List.all_eq_true, beq_iff_eq,
    Option.map_eq_some_iff] at h
  obtain ⟨⟨⟨⟨a1, a2⟩, a3⟩, a4⟩, a5⟩ := h
  exact ⟨a1, a2, a3, a4, a5⟩

/-- Which word a name finds. -/
def findsB (s : VM) (name : String) (i : Option Nat) : Bool :=
  match find (ctx demoCfg 2) (utf8 name.toList) s with
  | .ok (r, _) => r == i
  | .error _ => false

theorem findsB_spec {s : VM} {name : String} {i : Option Nat} (hd : Dict s) (hi : InSpace s)
    (h : findsB s name i = true) : Newest s (utf8 name.toList) i := by
  obtain ⟨r, h1, h2⟩ := hd.find hi (ctx demoCfg 2) (utf8 name.toList)
  simp only [findsB, h1, beq_iff_eq] at h
  exact h ▸ h2

/-- Word `i` is one written in Rust: what it does, whether it is immediate, whether compile-only, and that it
is compiled as a call. -/
def isWordB (s : VM) (i : Nat) (p : Prim) (imm only : Bool) : Bool :=
  s.wl.words[i]?.map (fun w => (w.action, w.isImmediate, w.isCompileOnly, w.compSem)) == some (p, imm, only, .word)

theorem isWordB_spec {s : VM} {i : Nat} {p : Prim} {imm only : Bool} (h : isWordB s i p imm only = true) :
    ∃ w, s.wl.words[i]? = some w ∧ w.action = p ∧ w.isImmediate = imm ∧ w.isCompileOnly = only ∧ w.compSem = .word := by
  simp only [isWordB, beq_iff_eq, Option.map_eq_some_iff, Prod.mk.injEq] at h
  obtain ⟨w, h1, h2, h3, h4, h5⟩ := h
  exact ⟨w, h1, h2, h3, h4, h5⟩

/-- Words the examples use: name, number, what they do, whether immediate, whether compile-only. -/
def someWords : List (String × Nat × Prim × Bool × Bool) :=
  [(":", 16, .core .colon, false, false), (";", 17, .core .semicolon, true, true),
   ("dup", 18, .core .dup, false, false), ("*", 19, .core .star, false, false),
   ("swap", 20, .core .swap, false, false), ("+", 21, .core .plus, false, false),
   ("1+", 22, .core .onePlus, false, false), ("?do", 23, .core .immQdo, true, true),
   ("do", 24, .core .immDo, true, true), ("i", 25, .core .i, false, true),
   ("loop", 26, .core .immLoop, true, true), ("if", 28, .core .immIf, true, true),
   ("then", 30, .core .immThen, true, true), ("+loop", 27, .core .immPlusLoop, true, true),
   ("abort", 52, .core .abort, false, false)]

/-- The facts the examples use. -/
def factsB (s : VM) : Bool :=
  listeningB s && (compilerB s.refs 15 s.wl && s.wl.words.length == 53 && s.refs.flit != 0 && s.refs.exit == 2 &&
  s.ds.start == 1024 && s.ds.cap == 65536 && decide (s.ds.here ≤ 20000) && s.task.s.items == [] &&
  s.task.r.items == [] && baseOf s == 10 && s.task.st.sourceIndex == 0 && s.task.st.sourceId == 0 && s.handler == 0 &&
  findsB s "0" none &&
  someWords.all fun e => findsB s e.1 (some e.2.1) && isWordB s e.2.1 e.2.2.1 e.2.2.2.1 e.2.2.2.2)

theorem small_facts : factsB smallBase = true := by decide +kernel

theorem small_dict : Dict smallBase ∧ InSpace smallBase := by
  have h := succeeds_spec smallLoads
  have hn : ∀ e, e ∈ smallTable → e.action ≠ .core .unmark := noUnmark_spec (by decide +kernel)
  unfold smallBase
  generalize after smallLoad (VM.blank 1024 65536) = s at *
  obtain ⟨_, s1, h1, h2⟩ := M.bind_inv h
  obtain ⟨d1, i1⟩ := C20_table (VM.blank_dict 1024 65536) ⟨by decide, by decide⟩ hn h1
  obtain ⟨d2, i2⟩ := patch_dict d1 i1 h2
  exact ⟨d2.congr rfl rfl, i2⟩

/-- More facts the examples use. -/
def moreB (s : VM) : Bool :=
  s.task.c.canary == .canary && s.wl.words[0]?.map (·.action) == some (.core .noop) &&
  (s.labels.length == 1000 && decide (s.refs.toR < 2 ^ 64) && findsB s "zz" none)

theorem small_more : moreB smallBase = true := by decide +kernel

theorem small_works : ∃ s, factsB s = true ∧ (Dict s ∧ InSpace s) ∧ moreB s = true :=
  ⟨smallBase, small_facts, small_dict, small_more⟩

/-- The machine above, of which only the facts above are known. -/
noncomputable def builtBase : VM := Classical.choose small_works

theorem built_facts : factsB builtBase = true := (Classical.choose_spec small_works).1

theorem built_dict : Dict builtBase ∧ InSpace builtBase := (Classical.choose_spec small_works).2.1

theorem built_more : moreB builtBase = true := (Classical.choose_spec small_works).2.2

/-- That machine with `l` on the data stack and `text` as input. -/
noncomputable def desk (l : List Cell) (text : String) : VM := typing (setData builtBase l) text.toList

theorem desk_same (l : List Cell) (text : String) : (desk l text).wl = builtBase.wl ∧ (desk l text).ds = builtBase.ds ∧
    (desk l text).refs = builtBase.refs ∧ ret (desk l text) = ret builtBase := by
  unfold desk
  generalize builtBase = s
  exact ⟨rfl, rfl, rfl, by simp only [ret, typing, setData, VM.task_setTask]⟩

theorem desk_data {l : List Cell} (h : l.length ≤ 64) (text : String) : data (desk l text) = l := by
  simp only [data, desk, typing, setData, VM.task_setTask]
  exact holding_items _ (by omega)

theorem desk_listening {l : List Cell} (h : l.length ≤ 64) (text : String) : Listening (desk l text) := by
  have hf := built_facts
  obtain ⟨hd, hi⟩ := built_dict
  obtain ⟨e1, e2, _⟩ := desk_same l text
  simp only [factsB, Bool.and_eq_true] at hf
  have hb := listeningB_spec hf.1 hd
  clear hf
  have hd' : Dict (desk l text) := hd.congr e1 e2
  revert hd'
  unfold desk
  generalize builtBase = s at *
  intro hd'
  refine ⟨?_, hb.noError, hb.token, ?_, hd', hb.space, ?_, ?_, ?_, ?_, ?_, hb.labels⟩ <;>
    simp only [typing, setData, VM.task_setTask, Idle, pc]
  · exact hb.interpreting
  · exact hb.idle
  · exact hb.data.holding h
  · exact hb.ret
  · exact hb.floats
  · exact hb.control
  · exact hb.balanced

/-- The words the examples use are found in it. -/
theorem desk_word (l : List Cell) (text : String) {name : String} {i : Nat} {p : Prim} {imm only : Bool}
    (h : (name, i, p, imm, only) ∈ someWords) : Newest (desk l text) (utf8 name.toList) (some i) ∧
      ∃ w, (desk l text).wl.words[i]? = some w ∧ w.action = p ∧ w.isImmediate = imm ∧ w.isCompileOnly = only ∧
        w.compSem = .word := by
  have hf := built_facts
  obtain ⟨hd, hi⟩ := built_dict
  simp only [factsB, Bool.and_eq_true] at hf
  have := hf.2.2
  rw [List.all_eq_true] at this
  have := this _ h
  simp only [Bool.and_eq_true] at this
  obtain ⟨h1, h2⟩ := this
  obtain ⟨e1, e2, _⟩ := desk_same l text
  rw [e1]
  refine ⟨?_, isWordB_spec h2⟩
  exact (newest_same_words e1 (fun _ _ _ => by rw [e2]) _ _).2 (findsB_spec hd hi h1)

theorem desk_compiler (l : List Cell) (text : String) : Compiler (desk l text).refs 15 (desk l text).wl := by
  have hf := built_facts
  simp only [factsB, Bool.and_eq_true] at hf
  obtain ⟨e1, e2, e3, _⟩ := desk_same l text
  rw [e1, e3]
  exact compilerB_spec hf.2.1.1.1.1.1.1.1.1.1.1.1.1.1.1

theorem desk_numbers (l : List Cell) (text : String) : (desk l text).wl.words.length = 53 ∧
    (desk l text).refs.flit ≠ 0 ∧ (desk l text).refs.exit = 2 ∧ (desk l text).ds.start = 1024 ∧
    (desk l text).ds.cap = 65536 ∧ (desk l text).ds.here ≤ 20000 ∧ ret (desk l text) = [] ∧
    baseOf (desk l text) = 10 ∧ Newest (desk l text) (utf8 "0".toList) none := by
  have hf := built_facts
  obtain ⟨hd, hi⟩ := built_dict
  obtain ⟨e1, e2, e3, e4⟩ := desk_same l text
  have e5 : baseOf (desk l text) = baseOf builtBase := by unfold baseOf; rw [e2]
  rw [newest_same_words e1 (fun _ _ _ => by rw [e2]), e1, e2, e3, e4, e5]
  simp only [factsB, Bool.and_eq_true, decide_eq_true_eq, beq_iff_eq, bne_iff_ne] at hf
  obtain ⟨_, ⟨⟨⟨⟨⟨⟨⟨⟨⟨⟨⟨⟨⟨⟨_, a2⟩, a3⟩, a4⟩, a5⟩, a6⟩, a7⟩, a8⟩, a9⟩, a10⟩, a11⟩, a12⟩, a13⟩, a14⟩, _⟩⟩ := hf
  exact ⟨a2, a3, a4, a5, a6, a7, a9, a10, findsB_spec hd hi a14⟩

/-- Its handler does nothing. -/
theorem desk_handler (l : List Cell) (text : String) : (desk l text).task.c.canary = .canary ∧
    ∃ w, (desk l text).wl.words[(desk l text).handler]? = some w ∧ w.action = .core .noop := by
  have hf := built_facts
  have hm := built_more
  simp only [moreB, Bool.and_eq_true, beq_iff_eq, Option.map_eq_some_iff] at hm
  simp only [factsB, Bool.and_eq_true, decide_eq_true_eq, beq_iff_eq, bne_iff_ne] at hf
  obtain ⟨_, ⟨⟨⟨⟨⟨⟨⟨⟨⟨⟨⟨⟨⟨⟨_, a2⟩, a3⟩, a4⟩, a5⟩, a6⟩, a7⟩, a8⟩, a9⟩, a10⟩, a11⟩, a12⟩, a13⟩, a14⟩, _⟩⟩ := hf
  unfold desk
  generalize builtBase = s at *
  refine ⟨?_, ?_⟩
  · simp only [typing, setData, VM.task_setTask]; exact hm.1.1
  · have : (typing (setData s l) text.toList).handler = 0 := a13
    rw [this]
    exact hm.1.2

/-- Its table of labels. -/
theorem desk_labels (l : List Cell) (text : String) : (desk l text).labels.length = 1000 ∧ (desk l text).refs.toR < 2 ^ 64 := by
  have hm := built_more
  simp only [moreB, Bool.and_eq_true, beq_iff_eq, decide_eq_true_eq] at hm
  exact hm.2.1

/-- A name that no word has, and the text it reads. -/
theorem desk_unknown (l : List Cell) (text : String) : Newest (desk l text) (utf8 "zz".toList) none ∧
    (desk l text).task.inbuf = some text.toList := by
  have hm := built_more
  obtain ⟨hd, hi⟩ := built_dict
  simp only [moreB, Bool.and_eq_true, beq_iff_eq, decide_eq_true_eq] at hm
  obtain ⟨e1, e2, _⟩ := desk_same l text
  refine ⟨(newest_same_words e1 (fun _ _ _ => by rw [e2]) _ _).2 (findsB_spec hd hi hm.2.2), ?_⟩
  simp only [desk, typing, VM.task_setTask]

theorem desk_reading (l : List Cell) {text : String} (h : byteLen text.toList < 2 ^ 63) :
    Reading (desk l text).task [] text.toList := by
  have hf := built_facts
  simp only [factsB, Bool.and_eq_true, decide_eq_true_eq, beq_iff_eq, bne_iff_ne] at hf
  obtain ⟨_, ⟨⟨⟨⟨⟨⟨⟨⟨⟨⟨⟨⟨⟨⟨_, a2⟩, a3⟩, a4⟩, a5⟩, a6⟩, a7⟩, a8⟩, a9⟩, a10⟩, a11⟩, a12⟩, a13⟩, a14⟩, _⟩⟩ := hf
  unfold desk
  generalize builtBase = s at *
  refine ⟨?_, ?_, h⟩ <;> simp only [typing, setData, VM.task_setTask, inputBuffer, a12]
  · rfl
  · exact a11

instance (rest : List Char) : Decidable (EndsToken rest) :=
  match rest with
  | [] => .isTrue nofun
  | ch :: _ => if h : Blank ch then .isTrue fun _ _ e => by cases e; exact h else .isFalse fun k => h (k _ _ rfl)

end Verif
