import Verif.Lemmas.Running
import Verif.Lemmas.Typist

/-!
# Definitions typed at the prompt of the program rtf
-/

namespace Verif
open Spec Stack

/-- Tokens of the input, evaluated one after the other. -/
inductive Spec.Passes (cfg : Cfg) (depth room : Nat) (L : VM → Prop) : List (List Char) → VM → VM → Prop
  | nil {s : VM} : Passes cfg depth room L [] s s
  | token {s b t : VM} {pre bs tok more : List Char} {toks : List (List Char)} : Next s pre bs tok more → tok ≠ [] →
      Evaluates cfg depth room (took s pre bs tok) b → L b → Passes cfg depth room L toks b t → Passes cfg depth room L (tok :: toks) s t

/-- Tokens and the items they spell in the definition of word `g`. -/
inductive Spec.Spelling (f : FloatOps) (s : VM) (g : Nat) : List (List Char) → List Item → Prop
  | nil : Spelling f s g [] []
  | cons {t : List Char} {i : Item} {ts : List (List Char)} {l : List Item} : Spells f s t i → Spelling f s g ts l → Spelling f s g (t :: ts) (i :: l)
  | self {t : List Char} {ts : List (List Char)} {l : List Item} : Spells f s t (.imm .immRecurse) → Spelling f s g ts l →
      Spelling f s g (t :: ts) (.word g :: l)

section
variable {cfg : Cfg} {n b g k m room : Nat} {s s0 a t u : VM} {ix : String → Nat} {text tok : List Char} {V : Vocabulary}
  {l l' : List Cell} {o out p0 : List Byte} {p : Recipe} {q : Stmt} {L : VM → Prop} {toks more : List (List Char)}

theorem Spec.Passes.append (h : Passes cfg n room L toks s t) (k : Passes cfg n room L more t u) : Passes cfg n room L (toks ++ more) s u := by
  induction h with
  | nil => exact k
  | token h1 h2 h3 h4 _ ih => exact .token h1 h2 h3 h4 (ih k)

theorem Spec.Passes.works (h : Passes cfg n room L toks s t) (k : Works cfg n room L more t u) : Works cfg n room L (toks ++ more) s u := by
  induction h with
  | nil => exact k
  | token h1 h2 h3 h4 _ ih => exact .token h1 h2 h3 h4 (ih k)

theorem Spec.Passes.fails {e : Exn} {P : List Cell → VM → Prop} (h : Passes cfg n room L toks s t) (k : Fails cfg n room L e P more t) :
    Fails cfg n room L e P (toks ++ more) s := by
  induction h with
  | nil => exact k
  | token h1 h2 h3 h4 _ ih => exact .token h1 h2 h3 h4 (ih k)

theorem Spec.Spelling.append {f : FloatOps} {i j : List Item} (h : Spelling f s g toks i) (k : Spelling f s g more j) : Spelling f s g (toks ++ more) (i ++ j) := by
  induction h with
  | nil => exact k
  | cons h _ ih => exact .cons h ih
  | self h _ ih => exact .self h ih

theorem Spec.Spelling.mono {f : FloatOps} {i : List Item} (hn : ∀ nm r, Newest s nm r → Newest t nm r)
    (hw : ∀ (i : Nat) (w : Word), s.wl.words[i]? = some w → t.wl.words[i]? = some w) (hb : baseOf t = baseOf s) (h : Spelling f s g toks i) :
    Spelling f t g toks i := by
  induction h with
  | nil => exact .nil
  | cons h _ ih => exact .cons (h.mono hn hw hb) ih
  | self h _ ih => exact .self (h.mono hn hw hb) ih

theorem exitCode_leaves (ix : String → Nat) (x : Bool) : ∀ n, (exitCode ix n).leavesOk x = true
  | 0 => rfl
  | n + 1 => by simp only [exitCode, Stmt.leavesOk, exitCode_leaves ix x n, Bool.and_self]

theorem exitCode_height (ix : String → Nat) : ∀ n, (exitCode ix n).height = 0
  | 0 => rfl
  | n + 1 => by simp only [exitCode, Stmt.height, exitCode_height ix n, Nat.max_self]

theorem exitCode_calls (ix : String → Nat) : ∀ n i, i ∈ (exitCode ix n).calls → i = ix "unloop"
  | 0, i, h => by cases h
  | n + 1, i, h => (List.mem_append.1 h).elim List.mem_singleton.1 (exitCode_calls ix n i)

/-- A definition with known words can be compiled. -/
theorem Spec.Recipe.Known.turned (hK : Kit b ix text V m s0 s) (g : Nat) : ∀ {p : Recipe} {x : Bool}, p.Known V x →
    ∃ q, Turned ix s0 V g p q ∧ q.leavesOk x = true
  | .skip, _, _ => ⟨_, .skip, rfl⟩
  | .token t, x, h => by
    have h : Spec.Known V t := by simpa only [Recipe.Known] using h
    cases h with
    | integer h1 h2 h3 => exact ⟨_, .token (.integer h1 h2 h3), rfl⟩
    | word h1 h2 h3 => exact ⟨_, .token (.word h1 h2 h3), rfl⟩
    | @user e h1 h2 =>
      obtain ⟨newer, e', older, hV, h3, h4⟩ := newest_split h1 h2
      exact ⟨_, .token (.user hV h3 h4), rfl⟩
  | .seq p p', x, h => by
    simp only [Recipe.Known] at h
    obtain ⟨q, h1, h2⟩ := turned hK g (p := p) h.1
    obtain ⟨q', h3, h4⟩ := turned hK g (p := p') h.2
    exact ⟨_, .seq h1 h3, by simp only [Stmt.leavesOk, h2, h4, Bool.and_self]⟩
  | .ifThen p, x, h => by
    simp only [Recipe.Known] at h
    obtain ⟨q, h1, h2⟩ := turned hK g (p := p) h
    exact ⟨_, .ifThen h1, h2⟩
  | .ifElse p p', x, h => by
    simp only [Recipe.Known] at h
    obtain ⟨q, h1, h2⟩ := turned hK g (p := p) h.1
    obtain ⟨q', h3, h4⟩ := turned hK g (p := p') h.2
    exact ⟨_, .ifElse h1 h3, by simp only [Stmt.leavesOk, h2, h4, Bool.and_self]⟩
  | .untilLoop p, x, h => by
    simp only [Recipe.Known] at h
    obtain ⟨q, h1, h2⟩ := turned hK g (p := p) h
    exact ⟨_, .untilLoop h1, h2⟩
  | .againLoop p, x, h => by
    simp only [Recipe.Known] at h
    obtain ⟨q, h1, h2⟩ := turned hK g (p := p) h
    exact ⟨_, .againLoop h1, h2⟩
  | .whileLoop p p', x, h => by
    simp only [Recipe.Known] at h
    obtain ⟨q, h1, h2⟩ := turned hK g (p := p) h.1
    obtain ⟨q', h3, h4⟩ := turned hK g (p := p') h.2
    exact ⟨_, .whileLoop h1 h3, by simp only [Stmt.leavesOk, h2, h4, Bool.and_self]⟩
  | .counted _ _ p, x, h => by
    simp only [Recipe.Known] at h
    obtain ⟨q, h1, h2⟩ := turned hK g (p := p) h
    exact ⟨_, .counted h1, h2⟩
  | .index, _, _ => ⟨_, .index, rfl⟩
  | .outer, _, _ => ⟨_, .outer, rfl⟩
  | .leave, x, h => by
    simp only [Recipe.Known] at h
    exact ⟨_, .leave, h⟩
  | .exit n, x, _ => ⟨_, .exit, exitCode_leaves ix x n⟩
  | .recurse, _, _ => ⟨_, .recurse, rfl⟩

theorem Spec.Turned.height (h : Turned ix s0 V g p q) : q.height = p.height := by
  induction h with
  | token h => cases h <;> rfl
  | exit => exact exitCode_height ix _
  | _ => simp only [Stmt.height, Recipe.height, *]

theorem loopWords_grammar : ∀ n, n ∈ loopWords → n ∈ grammar := by decide

theorem Spec.Kit.looping (hK : Kit b ix text V m s0 s) {name : String} (hn : name ∈ loopWords) (hne : name ≠ "leave") : Plain s.wl (ix name) := by
  obtain ⟨-, -, w, h1, -, h2⟩ := hK.loaded.workshop.loops name hn
  exact ⟨w, hK.words _ _ h1, h2 hne⟩

theorem Spec.Kit.loopSpells {f : FloatOps} (hK : Kit b ix text V m s0 s) {name : String} (hn : name ∈ loopWords) (hc : Called tok name) :
    Spells f s tok (.word (ix name)) := by
  obtain ⟨h1, -, w, h2, h3, -⟩ := hK.loaded.workshop.loops name hn
  exact .word (hK.newest (hK.free (loopWords_grammar _ hn) hc) hc h1) (hK.words _ _ h2) h3

/-- The words that are compiled. -/
theorem Spec.Means.plain {i : Nat} (h : Means ix s0 V tok (.word i)) (hK : Kit b ix text V m s0 s) :
    Newest s (utf8 tok) (some i) ∧ ∃ w, s.wl.words[i]? = some w ∧ w.compSem = .word ∧ w.isImmediate = false := by
  cases h with
  | word h1 h2 h3 =>
    obtain ⟨w, k1, k2⟩ := hK.loaded.workshop.calls _ h1
    exact ⟨hK.newest h3 h2 (hK.loaded.calcs _ h1).1, w, hK.words _ _ k1, k2⟩
  | @user newer older e h1 h2 h3 =>
    obtain ⟨w, q, e1, e2⟩ := hK.entries newer e.1 e.2 older h1
    exact ⟨newest_same h3 (e1 (h2.same h3)), w, e2.word, e2.compile, e2.plain⟩

theorem Spec.Turned.calls (h : Turned ix s0 V g p q) (hK : Kit b ix text V m s0 s) : ∀ i, i ∈ q.calls → Plain s.wl i ∨ i = g := by
  induction h with
  | token h =>
    intro i hi
    cases h with
    | integer => cases hi
    | word h1 h2 h3 =>
      obtain rfl := List.mem_singleton.1 hi
      obtain ⟨-, w, k1, k2, -⟩ := Means.plain (.word h1 h2 h3) hK
      exact .inl ⟨w, k1, k2⟩
    | user h1 h2 h3 =>
      obtain rfl := List.mem_singleton.1 hi
      obtain ⟨-, w, k1, k2, -⟩ := Means.plain (.user h1 h2 h3) hK
      exact .inl ⟨w, k1, k2⟩
  | skip => intro i hi; cases hi
  | seq _ _ ih1 ih2 => intro i hi; exact (List.mem_append.1 hi).elim (ih1 i) (ih2 i)
  | ifThen _ ih1 => exact ih1
  | ifElse _ _ ih1 ih2 => intro i hi; exact (List.mem_append.1 hi).elim (ih1 i) (ih2 i)
  | untilLoop _ ih1 => exact ih1
  | againLoop _ ih1 => exact ih1
  | whileLoop _ _ ih1 ih2 => intro i hi; exact (List.mem_append.1 hi).elim (ih1 i) (ih2 i)
  | counted _ ih1 => exact ih1
  | index => intro i hi; obtain rfl := List.mem_singleton.1 hi; exact .inl (hK.looping (by simp [loopWords]) (by decide))
  | outer => intro i hi; obtain rfl := List.mem_singleton.1 hi; exact .inl (hK.looping (by simp [loopWords]) (by decide))
  | leave => intro i hi; cases hi
  | exit => intro i hi; obtain rfl := exitCode_calls ix _ i hi; exact .inl (hK.looping (by simp [loopWords]) (by decide))
  | recurse => intro i hi; exact .inr (List.mem_singleton.1 hi)

theorem exitCode_next (ix : String → Nat) : ∀ (n : Nat) {toks : List (List Char)}, Spelt (.exit n) toks → ∀ x, (exitCode ix n).next x ≤ x + 16 * toks.length
  | 0, _, .exit _, x => by simp [exitCode, Stmt.next]
  | n + 1, _, .unloop _ h, x => by
    have := exitCode_next ix n h (x + 8)
    simp only [exitCode, Stmt.next, List.length_cons]
    omega

theorem Spec.Turned.next (h : Turned ix s0 V g p q) : ∀ {toks : List (List Char)}, Spelt p toks → ∀ x, q.next x ≤ x + 16 * toks.length := by
  induction h with
  | skip => intro toks hS x; cases hS; simp [Stmt.next]
  | token h => intro toks hS x; cases hS; cases h <;> simp [Stmt.next]
  | @seq _ _ q _ _ _ ih1 ih2 =>
    intro toks hS x
    cases hS with
    | seq h1 h2 =>
      have := ih1 h1 x
      have := ih2 h2 (q.next x)
      simp only [Stmt.next, List.length_append]
      omega
  | ifThen _ ih1 =>
    intro toks hS x
    cases hS with
    | ifThen _ h1 _ =>
      have := ih1 h1 (x + 16)
      simp only [Stmt.next, List.length_append, List.length_cons, List.cons_append, List.length_nil]
      omega
  | @ifElse _ _ q _ _ _ ih1 ih2 =>
    intro toks hS x
    cases hS with
    | ifElse _ h1 _ h2 _ =>
      have := ih1 h1 (x + 16)
      have := ih2 h2 (q.next (x + 16) + 16)
      simp only [Stmt.next, List.length_append, List.length_cons, List.cons_append, List.length_nil]
      omega
  | untilLoop _ ih1 =>
    intro toks hS x
    cases hS with
    | untilLoop _ h1 _ =>
      have := ih1 h1 x
      simp only [Stmt.next, List.length_append, List.length_cons, List.cons_append, List.length_nil]
      omega
  | againLoop _ ih1 =>
    intro toks hS x
    cases hS with
    | againLoop _ h1 _ =>
      have := ih1 h1 x
      simp only [Stmt.next, List.length_append, List.length_cons, List.cons_append, List.length_nil]
      omega
  | @whileLoop _ _ q _ _ _ ih1 ih2 =>
    intro toks hS x
    cases hS with
    | whileLoop _ h1 _ h2 _ =>
      have := ih1 h1 x
      have := ih2 h2 (q.next x + 16)
      simp only [Stmt.next, List.length_append, List.length_cons, List.cons_append, List.length_nil]
      omega
  | counted _ ih1 =>
    intro toks hS x
    cases hS with
    | counted _ h1 _ =>
      have := ih1 h1 (x + 16)
      simp only [Stmt.next, List.length_append, List.length_cons, List.cons_append, List.length_nil]
      omega
  | index => intro toks hS x; cases hS; simp [Stmt.next]
  | outer => intro toks hS x; cases hS; simp [Stmt.next]
  | leave => intro toks hS x; cases hS; simp [Stmt.next]
  | exit => intro toks hS x; exact exitCode_next ix _ hS x
  | recurse => intro toks hS x; cases hS; simp [Stmt.next]

theorem structureWords_grammar : ∀ n, n ∈ structureWords.map (·.1) → n ∈ grammar := by decide

theorem Spec.Kit.structure {f : FloatOps} (hK : Kit b ix text V m s0 s) {e : String × CorePrim} (he : e ∈ structureWords) (hc : Called tok e.1) :
    Spells f s tok (.imm e.2) := by
  obtain ⟨i, w, h1, h2, h3, h4⟩ := hK.loaded.workshop.structures e he
  exact .imm (hK.newest (hK.free (structureWords_grammar _ (List.mem_map_of_mem (f := fun x => x.1) he)) hc) hc h1) (hK.words _ _ h2) h3 h4

theorem exitCode_spelling {f : FloatOps} (hK : Kit b ix text V m s0 s) : ∀ (n : Nat) {toks : List (List Char)}, Spelt (.exit n) toks →
    Spelling f s g toks ((exitCode ix n).items s.refs (ix "leave"))
  | 0, _, .exit h => by
    have : s.refs.exit = ix "exit" := by rw [hK.refs]; exact hK.loaded.workshop.exit.symm
    refine .cons (i := .word s.refs.exit) ?_ .nil
    rw [this]; exact hK.loopSpells (by simp [loopWords]) h
  | n + 1, _, .unloop h1 h2 => .cons (hK.loopSpells (by simp [loopWords]) h1) (exitCode_spelling hK n h2)

theorem Spec.Turned.spelling {f : FloatOps} (hK : Kit b ix text V m s0 s) (h : Turned ix s0 V g p q) : ∀ {toks : List (List Char)}, Spelt p toks →
    Spelling f s g toks (q.items s.refs (ix "leave")) := by
  have one : ∀ {t : List Char} {i : Item}, Spells f s t i → Spelling f s g [t] [i] := fun h => .cons h .nil
  induction h with
  | skip => intro toks hS; cases hS; exact .nil
  | token h =>
    intro toks hS; cases hS
    cases h with
    | integer h1 h2 h3 =>
      refine one (.lit (hK.names _ h2 _ (hK.loaded.others _ h1)) ?_)
      have := hK.base
      rw [currentBase] at this
      rw [baseOf, this]; exact h3
    | word h1 h2 h3 =>
      obtain ⟨k0, w, k1, -, k2⟩ := Means.plain (.word h1 h2 h3) hK
      exact one (.word k0 k1 k2)
    | user h1 h2 h3 =>
      obtain ⟨k0, w, k1, -, k2⟩ := Means.plain (.user h1 h2 h3) hK
      exact one (.word k0 k1 k2)
  | seq _ _ ih1 ih2 =>
    intro toks hS
    cases hS with
    | seq h1 h2 => exact (ih1 h1).append (ih2 h2)
  | ifThen _ ih1 =>
    intro toks hS
    cases hS with
    | ifThen a1 h1 a2 => exact .cons (hK.structure (e := ("if", .immIf)) (by simp [structureWords]) a1) ((ih1 h1).append
        (one (hK.structure (e := ("then", .immThen)) (by simp [structureWords]) a2)))
  | ifElse _ _ ih1 ih2 =>
    intro toks hS
    cases hS with
    | ifElse a1 h1 a2 h2 a3 =>
      have k1 := hK.structure (f := f) (e := ("if", .immIf)) (by simp [structureWords]) a1
      have k2 := hK.structure (f := f) (e := ("else", .immElse)) (by simp [structureWords]) a2
      have k3 := hK.structure (f := f) (e := ("then", .immThen)) (by simp [structureWords]) a3
      exact .cons k1 (((ih1 h1).append (.cons k2 (ih2 h2))).append (one k3))
  | untilLoop _ ih1 =>
    intro toks hS
    cases hS with
    | untilLoop a1 h1 a2 => exact .cons (hK.structure (e := ("begin", .immBegin)) (by simp [structureWords]) a1) ((ih1 h1).append
        (one (hK.structure (e := ("until", .immUntil)) (by simp [structureWords]) a2)))
  | againLoop _ ih1 =>
    intro toks hS
    cases hS with
    | againLoop a1 h1 a2 => exact .cons (hK.structure (e := ("begin", .immBegin)) (by simp [structureWords]) a1) ((ih1 h1).append
        (one (hK.structure (e := ("again", .immAgain)) (by simp [structureWords]) a2)))
  | whileLoop _ _ ih1 ih2 =>
    intro toks hS
    cases hS with
    | whileLoop a1 h1 a2 h2 a3 =>
      have k1 := hK.structure (f := f) (e := ("begin", .immBegin)) (by simp [structureWords]) a1
      have k2 := hK.structure (f := f) (e := ("while", .immWhile)) (by simp [structureWords]) a2
      have k3 := hK.structure (f := f) (e := ("repeat", .immRepeat)) (by simp [structureWords]) a3
      exact .cons k1 (((ih1 h1).append (.cons k2 (ih2 h2))).append (one k3))
  | @counted ask plus _ _ _ ih1 =>
    intro toks hS
    cases hS with
    | counted a1 h1 a2 =>
      refine .cons ?_ ((ih1 h1).append (one ?_))
      · cases ask
        · exact hK.structure (e := ("do", .immDo)) (by simp [structureWords]) a1
        · exact hK.structure (e := ("?do", .immQdo)) (by simp [structureWords]) a1
      · cases plus
        · exact hK.structure (e := ("loop", .immLoop)) (by simp [structureWords]) a2
        · exact hK.structure (e := ("+loop", .immPlusLoop)) (by simp [structureWords]) a2
  | index => intro toks hS; cases hS with | index h => exact one (hK.loopSpells (by simp [loopWords]) h)
  | outer => intro toks hS; cases hS with | outer h => exact one (hK.loopSpells (by simp [loopWords]) h)
  | leave => intro toks hS; cases hS with | leave h => exact one (hK.loopSpells (by simp [loopWords]) h)
  | exit => intro toks hS; exact exitCode_spelling hK _ hS
  | recurse =>
    intro toks hS
    cases hS with
    | recurse h => exact .self (hK.structure (e := ("recurse", .immRecurse)) (by simp [structureWords]) h) .nil

/-- `recurse` compiles a call of the newest word. -/
theorem recurse_gen {c : Ctx} {R : Refs} {wl : Wordlist} {x y : Buf} {w : Word} (hg : g + 1 = wl.words.length) (hw : wl.words[g]? = some w) (hc : w.compSem = .word)
    (h : Gen R wl ((Item.word g).run c) x y) : Gen R wl ((Item.imm .immRecurse).run c) x y := by
  intro s h1 h2
  have := h s h1 h2
  have hw' : (s.code x).wl.words[g]? = some w := by rw [← h2] at hw; exact hw
  simp only [Item.run, M.bind_apply, wordAt_ok hw', hc, compSemRun] at this
  show immRecurse c (s.code x) = _
  have e : (s.code x).wl.words.length = g + 1 := by rw [hg, ← h2]; rfl
  simp only [immRecurse, M.bind_apply, getWl_apply, e, usub_ok (Nat.le_add_left 1 g), liftE_ok, Nat.add_sub_cancel]
  exact this

/-- The machine that reads the body of a definition. -/
theorem took_compiling (S : VM) (x : Buf) (k w : Nat) (tk pre bs t : List Char) :
    took ((S.seen k tk w).code x) pre bs t = (S.seen (byteLen (pre ++ bs ++ t)) t w).code x := by
  have e : ((S.seen k tk w).code x).task.st.wp = w := by rw [VM.code_task, VM.seen_task]
  rw [VM.seen_took, e, VM.code_seen, VM.seen_seen]

theorem compiling_reading {S : VM} {x y : Buf} {k w k' w' : Nat} {tk tk' pre rest bs : List Char} (h : Reading ((S.seen k tk w).code x).task pre (bs ++ rest))
    (hk : k' = byteLen (pre ++ bs)) : Reading ((S.seen k' tk' w').code y).task (pre ++ bs) rest := by
  have h1 := h.buffer; have h3 := h.bounded
  rw [VM.code_task, VM.seen_task] at h1 ⊢
  exact ⟨by rw [List.append_assoc]; exact h1, hk, by rw [List.append_assoc]; exact h3⟩

/-- The body of a definition. -/
theorem body_passes {S : VM} {base : Stack Control} {w : Nat} {items : List Item} {x y : Buf} (hbase : base = S.task.c) (hT : Composing S)
    (hfl : S.refs.flit ≠ 0) (hdata : (data S).length < capacity) (hcalm : Calm S.task.s ∧ Calm S.task.r ∧ Calm S.task.f) (hc : Calm base)
    (hg0 : g + 1 = S.wl.words.length) (hg1 : Plain S.wl g) (hL : ∀ k tk z, Kept base S z → L ((S.seen k tk w).code z)) (hG : Gens cfg.overflowChecks S.refs S.wl base S.ds.here items x y) :
    ∀ {toks : List (List Char)} {pre rest : List Char} {k : Nat} {tk : List Char}, Spelling cfg.fops S g toks items → Kept base S x →
      Tokens rest (toks ++ more) → Reading ((S.seen k tk w).code x).task pre rest → ∃ pre' rest' k' tk',
        Passes cfg (n + 1) room L toks ((S.seen k tk w).code x) ((S.seen k' tk' w).code y) ∧ Kept base S y ∧ Tokens rest' more ∧
        Reading ((S.seen k' tk' w).code y).task pre' rest' := by
  induction hG with
  | nil =>
    intro toks pre rest k tk hS hk hT hr
    cases hS
    exact ⟨pre, rest, k, tk, .nil, hk, hT, hr⟩
  | @cons i items x y z K e hg hr he hs _ ih =>
    intro toks pre rest k tk hS hk hT' hrd
    have key : ∃ t ts i', toks = t :: ts ∧ Spells cfg.fops S t i' ∧ Spelling cfg.fops S g ts items ∧
        ∀ c : Ctx, c.oc = cfg.overflowChecks → Gen S.refs S.wl (i'.run c) x y := by
      cases hS with
      | @cons t _ ts _ hS1 hS2 => exact ⟨t, ts, i, rfl, hS1, hS2, hg⟩
      | @self t ts _ hS1 hS2 =>
        obtain ⟨w', w1, w2⟩ := hg1
        exact ⟨t, ts, _, rfl, hS1, hS2, fun c hc => recurse_gen hg0 w1 w2 (hg c hc)⟩
    obtain ⟨t, ts, i', rfl, hS1, hS2, hg⟩ := key
    cases hT' with
    | @word bs _ rest _ hb hne hnb hend hrest =>
    have hy : Kept base S y := by subst hbase; exact hk.next hr he hs
    have hev := compile_evaluates (cfg := cfg) (n := n) (room := room) (k := byteLen (pre ++ bs ++ t)) (w := w) hT hk hS1 hfl hg hdata hcalm (hr.calm hc)
    have hrd' : Reading ((S.seen (byteLen (pre ++ bs ++ t)) t w).code y).task (pre ++ (bs ++ t)) rest := by
      refine compiling_reading (by rw [List.append_assoc]; exact hrd) (by rw [List.append_assoc])
    obtain ⟨pre', rest', k', tk', h1, h2, h3, h4⟩ := ih hS2 hy hrest hrd'
    refine ⟨pre', rest', k', tk', .token (more := rest) ⟨hrd, hb, hnb, hend, fun e => absurd e hne, ⟨_, rfl⟩⟩ hne ?_ (hL _ _ _ hy) h1, h2, h3, h4⟩
    rw [took_compiling]; exact hev

/-- Machines with the same words and memory. -/
theorem Spec.Kit.congr (hK : Kit b ix text V m s0 s) (h1 : u.refs = s.refs) (h2 : u.cur = s.cur) (h3 : u.ds = s.ds) (h4 : u.wl = s.wl) :
    Kit b ix text V m s0 u := by
  have hn : ∀ {nm r}, Newest s nm r → Newest u nm r := fun h => by simpa only [Newest, Visible, h3, h4] using h
  refine ⟨hK.loaded, h1.trans hK.refs, h2.trans hK.cur, by rw [h3]; exact hK.start, by rw [h3]; exact hK.cap, by rw [h3]; exact hK.here,
    by rw [h3]; exact hK.bytes, by rw [h4]; exact hK.words, hK.dict.congr h4 h3, by rw [h3]; exact hK.space, fun nm k r h => hn (hK.names nm k r h),
    hK.novel, by rw [h4]; exact hK.size, by rw [h3, h4]; exact hK.count, by rw [h3]; exact hK.memory, fun newer name p older e => ?_⟩
  obtain ⟨w, q, e1, e2⟩ := hK.entries newer name p older e
  exact ⟨w, q, fun h => hn (e1 h), by rw [h4]; exact e2.word, e2.nest, e2.compile, e2.plain, e2.open_, e2.lower, by rw [h3]; exact e2.upper,
    by rw [h1, h3]; exact e2.code, e2.turned⟩

/-- One more word. -/
theorem Spec.Kit.extend (hK : Kit b ix text V m s0 a) {name : List Char} {body : List (List Char)} {dfa : Nat} (h1 : u.refs = a.refs) (h2 : u.cur = a.cur)
    (h3 : u.ds.cap = a.ds.cap) (h4 : u.wl = colonList a (utf8 name) dfa false) (hN : Named a (utf8 name) dfa u.ds)
    (h5 : u.ds.here = q.next dfa + 8) (hd : dfa = roundUp8 (a.ds.here + 8 + (utf8 name).length)) (hsp : SoundSpace u.ds) (hq : Turned ix s0 V a.wl.words.length p q)
    (hS : Spelt p body) (hcode : (Stmt.seq (q.place dfa) .exit).At u.refs (ix "leave") u.ds dfa) (hn : Definable name)
    (hc : cost name body ≤ m) : Kit b ix text ((name, p) :: V) (m - cost name body) s0 u := by
  have hl := hK.dict
  have hfit := hN.fits
  have hnext := q.le_next dfa
  have hnext' := hq.next hS dfa
  have hr := roundUp8_le (a.ds.here + 8 + (utf8 name).length)
  have hhere := hK.here
  have hpos : 1 ≤ a.wl.words.length := by
    obtain ⟨w, h, -⟩ := hK.compiler.exit
    have := (List.getElem?_eq_some_iff.1 h).1
    omega
  have hlen : u.wl.words.length = a.wl.words.length + 1 := by rw [h4]; simp [colonList, Wordlist.push]
  have hnew : ∀ nm, ¬SameName (utf8 name) nm → ∀ r, Newest a nm r → Newest u nm r := fun nm h r => (((hN.newest_shown hK.dict hpos h4 nm).2 h) r).2
  have hself : ∀ x : List Byte, SameName x x := fun x => (sameName_iff _ _).2 rfl
  have hlim : u.ds.limit = a.ds.limit := by simp only [DataSpace.limit, hN.start, h3]
  have hmem := hK.memory
  have hsize := hK.size
  refine ⟨hK.loaded, h1.trans hK.refs, h2.trans hK.cur, hN.start.trans hK.start, h3.trans hK.cap, by omega,
    fun x hx => (hN.below x (by omega)).trans (hK.bytes x hx), fun i w h => colonList_old h4 (hK.words i w h), hN.dict hK.dict h4, hsp, ?_, ?_, ?_, ?_, ?_, ?_⟩
  · intro nm h r hr
    refine hnew nm (fun k => h _ (List.mem_cons_self ..) k.symm) r (hK.names nm (fun e he => h e (List.mem_cons_of_mem _ he)) r hr)
  · intro e he
    rcases List.mem_cons.1 he with rfl | he
    · exact hn
    · exact hK.novel e he
  · rw [hlen, hsize, List.length_cons]; omega
  · have := hK.count
    rw [hlen]; omega
  · rw [hlim]
    simp only [cost] at hc ⊢
    omega
  · intro newer nm p' older e
    cases newer with
    | nil =>
      cases e
      rw [← hsize]
      refine ⟨_, q, fun _ => (hN.newest_shown hK.dict hpos h4 _).1 (hself _), colonList_new h4, rfl, rfl, rfl, rfl, ?_, ?_, hcode, hq⟩
      · show s0.ds.here ≤ dfa
        omega
      · show (Stmt.seq (q.place dfa) .exit).next dfa ≤ _
        rw [h5]
        simp only [Stmt.next, Stmt.place_next]
        omega
    | cons c newer =>
      rw [List.cons_append] at e
      injection e with e0 e
      obtain ⟨w, q', e1, e2⟩ := hK.entries newer nm p' older e
      have hup := e2.upper
      subst e0
      exact ⟨w, q', fun h => hnew _ (fun k => h _ (List.mem_cons_self ..) k.symm) _ (e1 fun x hx => h x (List.mem_cons_of_mem _ hx)), colonList_old h4 e2.word, e2.nest, e2.compile, e2.plain, e2.open_, e2.lower,
        by omega, by rw [h1]; exact e2.code.congr fun z _ hz => hN.below z (by omega), e2.turned⟩

/-- Whether there is a word of the name. -/
theorem Spec.Announces.found {name : List Char} {rm : List Byte} (hA : Announces V name rm) (hK : Kit b ix text V m s0 s) :
    ∃ r, Newest s (utf8 name) r ∧ rm = remark r.isSome (utf8 name) := by
  cases hA with
  | new h1 h2 => exact ⟨none, hK.names _ h2 _ (hK.loaded.others _ h1), rfl⟩
  | again h =>
    suffices ∃ i, Newest s (utf8 name) (some i) by
      obtain ⟨i, hi⟩ := this
      exact ⟨_, hi, rfl⟩
    by_cases hU : Unused V name
    · have : ∃ n, n ∈ rtfWords ∧ Called name n := by
        refine Classical.byContradiction fun hn => h ⟨fun n h1 h2 => hn ⟨n, h1, h2⟩, hU⟩
      obtain ⟨n, h1, h2⟩ := this
      obtain ⟨i, hi⟩ := hK.loaded.words n h1
      exact ⟨i, hK.newest hU h2 hi⟩
    · have : ∃ e, e ∈ V ∧ SameName (utf8 name) (utf8 e.1) := by
        refine Classical.byContradiction fun hn => hU fun e h1 h2 => hn ⟨e, h1, h2⟩
      obtain ⟨e, h1, h2⟩ := this
      obtain ⟨newer, e', older, h3, h4, h5⟩ := newest_split h1 h2
      obtain ⟨w, q, e1, -⟩ := hK.entries newer e'.1 e'.2 older h3
      exact ⟨_, newest_same h5 (e1 (h4.same h5))⟩

/-- A definition is typed. -/
theorem teach (hK : Kit b ix text V m s0 s) (hs : Sits s ix l o k p0 a) (hl : l.length + 4 ≤ capacity) {x y name name' pre rest : List Char}
    {body : List (List Char)} (hx : Called x ":") (hn' : name' = name.map lowerChar) (hn : Definable name') {rm : List Byte} (hA : Announces V name' rm)
    (hS : Spelt p body) (hp : p.Known V false) (hh : p.height ≤ 64) (hy : Called y ";") (hc : cost name' body ≤ m) (hT : Tokens rest (x :: name :: (body ++ y :: toks)))
    (hr : Reading a.task pre rest) : ∃ t pre' rest', Passes cfg (n + 1) room (StillLoaded (ix "leave") (rtfRegions b) s0) (x :: (body ++ [y])) a t ∧
      Kit b ix text ((name', p) :: V) (m - cost name' body) s0 t ∧ Sits t ix l (o ++ rm) k p0 t ∧ Tokens rest' toks ∧ Reading t.task pre' rest' := by
  have hcap : capacity = 64 := rfl
  cases hT with
  | @word b1 _ rest _ hb1 hne1 hnb1 he1 hT =>
  cases hT with
  | @word b2 _ rest _ hb2 hne2 hnb2 he2 hT =>
  -- reading `:`
  have hs1 := hs.took pre b1 x
  have hr1 : Reading (took a pre b1 x).task (pre ++ (b1 ++ x)) (b2 ++ (name ++ rest)) := by
    have h1 := hr.buffer; have h3 := hr.bounded
    rw [took_task]
    exact ⟨by show inputBuffer a.task = _; simpa only [List.append_assoc] using h1, by rw [← List.append_assoc]; rfl, by simpa only [List.append_assoc] using h3⟩
  have hnext : Next a pre b1 x (b2 ++ (name ++ rest)) := ⟨hr, hb1, hnb1, he1, fun e => absurd e hne1, hs.token⟩
  have htk : (took a pre b1 x).tkn = some x := rfl
  generalize hce : took a pre b1 x = c at hs1 hr1 htk
  have hKc : Kit b ix text V m s0 c := hK.congr hs1.refs hs1.cur hs1.ds hs1.wl
  have hmem := hKc.memory
  have hsp := hKc.space
  obtain ⟨q, hq, hqL⟩ := Recipe.Known.turned hKc c.wl.words.length hp
  have hqn := hq.next hS
  have hcost : cost name' body = 8 + (utf8 name').length + 7 + 16 * body.length + 8 := rfl
  -- `:` and the name
  have hru := roundUp8_le (c.ds.here + 8 + (utf8 name').length)
  obtain ⟨d1, d2, hd1, hd2, hH⟩ := header_ok (oc := cfg.overflowChecks) (s := c) (name := utf8 name') hsp (by omega)
  obtain ⟨dfa, hdfa⟩ : ∃ dfa, dfa = roundUp8 (c.ds.here + 8 + (utf8 name').length) := ⟨_, rfl⟩
  have hN : Named c (utf8 name') dfa d2 := by rw [hdfa]; exact hH.named hsp
  rw [← hdfa] at hru
  have hqn := hqn dfa
  obtain ⟨ic, wc, n1, n2, n4, n3⟩ := hKc.loaded.workshop.colon
  have n1 : Newest c (utf8 x) (some ic) := hKc.newest (hKc.free (by simp [grammar]) hx) hx n1
  obtain ⟨fnd, hfnd, rfl⟩ := hA.found hKc
  have hev1 := colon_evaluates (cfg := cfg) (n := n) (room := room) hKc.dict hsp hs1.mode hs1.error htk n1 (hKc.words _ _ n2) n3 n4 hr1 hb2 hne2 hnb2 he2
    (by rw [hn']) hd1 hd2 hdfa (hH.here.trans hdfa.symm) hfnd rfl (by rw [hs1.data]; omega) hs1.calm
  rw [← hn'] at hev1
  obtain ⟨S, hSe⟩ : ∃ S, S = c.opened (colonList c (utf8 name') dfa true) (c.outbuf.map (· ++ remark fnd.isSome (utf8 name'))) d2 true := ⟨_, rfl⟩
  rw [← hSe] at hev1
  have hwl : S.wl = colonList c (utf8 name') dfa true := by rw [hSe]; rfl
  have hds : S.ds = d2 := by rw [hSe]; rfl
  have hrefs : S.refs = c.refs := by rw [hSe]; rfl
  have hcur : S.cur = c.cur := by rw [hSe]; rfl
  have htask : S.task = { c.task with st := { c.task.st with isCompiling := true } } := by rw [hSe, VM.opened_task]
  have hlim : d2.limit = c.ds.limit := by simp only [DataSpace.limit, hH.start, hH.cap]
  have hspace : SoundSpace d2 := by
    refine ⟨by rw [hH.start]; exact hsp.pos, by rw [hH.start]; exact hsp.aligned, by rw [hH.start, hH.cap]; exact hsp.small, ?_, hH.inside⟩
    have h2 := hH.here; have h3 := hH.start; have h4 := hsp.vars
    simp only [DataSpace.here] at h2 hdfa hru
    omega
  have hNS : Named c (utf8 name') dfa S.ds := by rw [hds]; exact hN
  have hC : Composing S := ⟨by rw [htask], by rw [hSe]; exact hs1.error, hNS.dict hKc.dict hwl, by rw [hds]; exact hspace⟩
  have hold : ∀ (i : Nat) (w : Word), c.wl.words[i]? = some w → S.wl.words[i]? = some w := fun i w h => colonList_old hwl h
  have hnew : ∀ nm r, Newest c nm r → Newest S nm r := fun nm r h => (hNS.newest_hidden hKc.dict hwl nm r).2 h
  have hbase : baseOf S = baseOf c := by
    have h1 := hsp.vars
    have : c.ds.here = c.ds.start + c.ds.len := rfl
    simp only [baseOf, DataSpace.baseAddr, hNS.start]
    rw [DataSpace.cellAt_congr fun z _ hz => hNS.below z (by omega)]
  have hself : Plain S.wl c.wl.words.length := ⟨_, colonList_new hwl, rfl⟩
  have hcount : c.wl.words.length + 1 = S.wl.words.length := by rw [hwl]; simp [colonList, Wordlist.push]
  have hHere : S.ds.here = dfa := by rw [hds, hH.here, hdfa]
  have hSc : S.task.c = c.task.c := by rw [htask]
  have hCal : Calm S.task.s ∧ Calm S.task.r ∧ Calm S.task.f := by rw [htask]; exact ⟨hs1.calm.1, hs1.calm.2.1, hs1.calm.2.2.2⟩
  have hCb : Calm S.task.c := by rw [hSc]; exact hs1.calm.2.2.1
  have hdata : (data S).length < capacity := by
    have : data S = data c := by simp only [data, htask]
    rw [this, hs1.data]; omega
  have hC1 : Compiler S.refs (ix "leave") S.wl := by
    rw [hrefs]
    exact hKc.compiler.mono hold (by rw [hwl]; simp [colonList, Wordlist.push]; have := hKc.length; omega)
  -- the body
  have hready : Ready S.task.c [] (S.ds, S.task.c) dfa := by
    refine ⟨by rw [hds]; exact ⟨hspace.small, hspace.inside⟩, hHere, ?_, by simp, ?_⟩
    · have := holding_self S.task.c
      rw [hSc, hs1.control] at this
      rw [hSc, this]
      exact .refl _
    · exact hCb.under
  have hlimS : S.ds.limit = c.ds.limit := by rw [hds, hlim]
  obtain ⟨z, hcomp, hat⟩ := compile_stmt (oc := cfg.overflowChecks) (base := S.task.c) (a0 := dfa) hC1 q false [] (S.ds, S.task.c) dfa (Nat.le_refl _)
    hready (fun h => by cases h) ⟨fun i hi => (hq.calls hKc i hi).elim (fun h => h.imp fun w hw => ⟨hold i w hw.1, hw.2⟩) (fun h => h ▸ hself), hqL, by rw [hq.height]; simpa using hh,
      by show _ ≤ S.ds.limit; omega⟩
  have hk1 : Kept S.task.c S (S.ds, S.task.c) := ⟨⟨rfl, rfl, fun _ _ => rfl⟩, Nat.le_refl _, [], dfa, hready⟩
  have hL : ∀ k tk z, Kept S.task.c S z → StillLoaded (ix "leave") (rtfRegions b) s0 ((S.seen k tk c.task.st.wp).code z) := fun k tk z hz =>
    hKc.still hrefs hcur (hz.same.start.trans hNS.start) (hz.same.cap.trans (by rw [hds, hH.cap]))
      (fun w hw => (hz.same.bytes w (by have := hNS.fits; omega)).trans (hNS.below w hw)) hold
  have ecode : ∀ k tk w, (S.seen k tk w).code (S.ds, S.task.c) = S.seen k tk w := by
    intro k tk w
    have := (S.seen k tk w).code_self
    rw [VM.seen_task] at this
    exact this
  have hr2 : Reading ((S.seen (byteLen (pre ++ (b1 ++ x) ++ (b2 ++ name))) name' c.task.st.wp).code (S.ds, S.task.c)).task
      (pre ++ (b1 ++ x) ++ (b2 ++ name)) rest := by
    have h1 := hr1.buffer; have h3 := hr1.bounded
    rw [ecode, VM.seen_task, htask]
    exact ⟨by show inputBuffer c.task = _; simpa only [List.append_assoc] using h1, rfl, by simpa only [List.append_assoc] using h3⟩
  obtain ⟨pre', rest', k', tk', g1, g2, g3, g4⟩ := body_passes (cfg := cfg) (n := n) (room := room) (more := y :: toks) rfl hC
    (by rw [hrefs, hKc.refs]; exact hKc.loaded.workshop.float) hdata hCal hCb hcount hself hL (by rw [hHere, ← hrefs]; exact hcomp.gens)
    ((hq.spelling (f := cfg.fops) hKc hS).mono hnew hold hbase) hk1 hT hr2
  -- `;`
  cases g3 with
  | @word b3 _ rest2 _ hb3 hne3 hnb3 he3 hT3 =>
  obtain ⟨is, ws, m1, m2, m4, m3⟩ := hKc.loaded.workshop.structures (";", .semicolon) (by simp [structureWords])
  have m1 : Newest c (utf8 y) (some is) := hKc.newest (hKc.free (by simp [grammar]) hy) hy m1
  have hzl : z.1.limit = c.ds.limit := hcomp.same.limit.trans hlimS
  have hev3 := semicolon_evaluates (cfg := cfg) (n := n) (room := room) (k := byteLen (pre' ++ b3 ++ y)) (ts := y) (w := c.task.st.wp) hC g2 hcomp.ready
    (by omega) hC1 hwl (by rw [hSe]; exact hs1.labels) (hnew _ _ m1) (hold _ _ (hKc.words _ _ m2)) m3 m4 hdata hCal (hcomp.ready.calm hCb)
  obtain ⟨a1, a2, a3⟩ := hcomp.ready.emit (by omega) (toCell S.refs.exit)
  generalize hz : ((z.1.emit (toCell S.refs.exit), z.2) : Buf) = z' at a1 a2 a3 hev3
  obtain ⟨t, ht⟩ : ∃ t, t = ((S.opened (colonList c (utf8 name') dfa false) S.outbuf S.ds false).seen (byteLen (pre' ++ b3 ++ y)) y c.task.st.wp).code z' := ⟨_, rfl⟩
  rw [← ht] at hev3
  have tt : t.task = { c.task with c := z'.2, st := { c.task.st with isCompiling := false, sourceIndex := byteLen (pre' ++ b3 ++ y), wp := c.task.st.wp } } := by
    rw [ht, VM.code_task, VM.seen_task, VM.opened_task, htask]
  have tds : t.ds = z'.1 := by rw [ht]; rfl
  have twl : t.wl = colonList c (utf8 name') dfa false := by rw [ht]; rfl
  have tref : t.refs = c.refs := by rw [ht]; exact hrefs
  have tcur : t.cur = c.cur := by rw [ht]; exact hcur
  have hz1 : z'.1.start = c.ds.start := by rw [a2.start, hcomp.same.start, hds, hH.start]
  have hz2 : z'.1.cap = c.ds.cap := by rw [a2.cap, hcomp.same.cap, hds, hH.cap]
  have hqle := q.le_next dfa
  have tN : Named c (utf8 name') dfa t.ds := by
    rw [tds]
    exact hN.congr (by rw [hz1, hN.start]) (fun w hw => by rw [a2.bytes w (by omega), hcomp.same.bytes w hw, hds]) (by rw [a1.here]; omega)
  have tsp : SoundSpace t.ds := by
    rw [tds]
    refine ⟨by rw [hz1]; exact hsp.pos, by rw [hz1]; exact hsp.aligned, by rw [hz1, hz2]; exact hsp.small, ?_, a1.space.inside⟩
    have h2 := hsp.vars
    have h4 := a1.here
    simp only [DataSpace.here] at h4 hdfa hru
    omega
  have tcode : (Stmt.seq (q.place dfa) .exit).At t.refs (ix "leave") t.ds dfa := by
    rw [tds, tref, ← hrefs]
    refine ⟨hat.congr fun n _ h2 => a2.bytes n (by simpa using h2), ?_⟩
    rw [Stmt.place_next]
    exact cellIs_of (by rw [← hz]; exact a3) (hC1.call_lt hC1.exit)
  have tK := hKc.extend tref tcur (by rw [tds, hz2]) twl tN (by rw [tds]; exact a1.here) hdfa tsp hq hS tcode hn hc
  have tS : Sits t ix l (o ++ remark fnd.isSome (utf8 name')) k p0 t := by
    refine ⟨rfl, rfl, rfl, rfl, ?_, ?_, ?_, ?_, ?_, ⟨y, by rw [ht]; rfl⟩, ?_, ?_, by rw [tt], by rw [tt]; exact hs1.source, by rw [tt]; exact hs1.input, ?_, ?_⟩
    · rw [ht, ← hs1.handler, hSe]; rfl
    · simp only [data, tt]; exact hs1.data
    · rw [tt]; exact ⟨hs1.calm.1, hs1.calm.2.1, a1.calm hCb, hs1.calm.2.2.2⟩
    · rw [tt]; exact items_eq_iff.2 a1.ctl.rep
    · rw [ht, ← hs1.labels, hSe]; rfl
    · have : t.outbuf = c.outbuf.map (· ++ remark fnd.isSome (utf8 name')) := by rw [ht, hSe]; rfl
      rw [this, hs1.output]; rfl
    · rw [ht, ← hs1.error, hSe]; rfl
    · rw [ht, ← hs1.calls, hSe]; rfl
    · rw [ht, ← hs1.stdout, hSe]; rfl
  refine ⟨t, pre' ++ (b3 ++ y), rest2, ?_, tK, tS, hT3, ?_⟩
  · refine .token hnext hne1 (by rw [hce]; exact hev1) (by rw [← ecode]; exact hL _ _ _ hk1) (.append (by rw [← ecode]; exact g1) ?_)
    refine .token (more := rest2) ⟨g4, hb3, hnb3, he3, fun e => absurd e hne3, ⟨_, rfl⟩⟩ hne3 (by rw [took_compiling]; exact hev3) (tS.still tK) .nil
  · have h1 := g4.buffer; have h3 := g4.bounded
    rw [VM.code_task, VM.seen_task, htask] at h1
    replace h1 : inputBuffer c.task = _ := h1
    rw [tt]
    exact ⟨by show inputBuffer c.task = _; simpa only [List.append_assoc] using h1, by rw [List.append_assoc], by simpa only [List.append_assoc] using h3⟩

end
end Verif
