import Verif.Lemmas.Numeral
import Verif.Props.Program
import Verif.Spec.Teaching

/-!
# What tokens do at the prompt of the program rtf
-/

namespace Verif
open Spec Stack

/-- The code compiled for a token of a definition. -/
inductive Spec.Means (ix : String → Nat) (s0 : VM) (V : Vocabulary) (tok : List Char) : Stmt → Prop
  | integer {v : Cell} : NoWord tok → Unused V tok → IntegerToken 10 (utf8 tok) v → Means ix s0 V tok (.lit v)
  | word {name : String} : name ∈ calcWords → Called tok name → Unused V tok → Means ix s0 V tok (.word (ix name))
  | user {newer older : Vocabulary} {e : List Char × Recipe} : V = newer ++ e :: older → Unused newer tok → SameName (utf8 tok) (utf8 e.1) →
      Means ix s0 V tok (.word (s0.wl.words.length + older.length))

/-- The code of `exit` out of `n` loops. -/
def exitCode (ix : String → Nat) : Nat → Stmt
  | 0 => .exit
  | n + 1 => .seq (.word (ix "unloop")) (exitCode ix n)

/-- The code compiled for the body of a definition. The number of the word that is defined is `g`. -/
inductive Spec.Turned (ix : String → Nat) (s0 : VM) (V : Vocabulary) (g : Nat) : Recipe → Stmt → Prop
  | skip : Turned ix s0 V g .skip .skip
  | token {t : List Char} {q : Stmt} : Means ix s0 V t q → Turned ix s0 V g (.token t) q
  | seq {p p' : Recipe} {q q' : Stmt} : Turned ix s0 V g p q → Turned ix s0 V g p' q' → Turned ix s0 V g (.seq p p') (.seq q q')
  | ifThen {p : Recipe} {q : Stmt} : Turned ix s0 V g p q → Turned ix s0 V g (.ifThen p) (.ifThen q)
  | ifElse {p p' : Recipe} {q q' : Stmt} : Turned ix s0 V g p q → Turned ix s0 V g p' q' → Turned ix s0 V g (.ifElse p p') (.ifElse q q')
  | untilLoop {p : Recipe} {q : Stmt} : Turned ix s0 V g p q → Turned ix s0 V g (.untilLoop p) (.untilLoop q)
  | againLoop {p : Recipe} {q : Stmt} : Turned ix s0 V g p q → Turned ix s0 V g (.againLoop p) (.againLoop q)
  | whileLoop {p p' : Recipe} {q q' : Stmt} : Turned ix s0 V g p q → Turned ix s0 V g p' q' → Turned ix s0 V g (.whileLoop p p') (.whileLoop q q')
  | counted {ask plus : Bool} {p : Recipe} {q : Stmt} : Turned ix s0 V g p q → Turned ix s0 V g (.counted ask plus p) (.loop ask plus 0 q)
  | index : Turned ix s0 V g .index (.word (ix "i"))
  | outer : Turned ix s0 V g .outer (.word (ix "j"))
  | leave : Turned ix s0 V g .leave .leave
  | exit {n : Nat} : Turned ix s0 V g (.exit n) (exitCode ix n)
  | recurse : Turned ix s0 V g .recurse (.word g)

/-- A word that the user defined, with its code. -/
structure Spec.Entry (ix : String → Nat) (s0 s : VM) (V : Vocabulary) (p : Recipe) (i : Nat) (w : Word) (q : Stmt) : Prop where
  word : s.wl.words[i]? = some w
  nest : w.action = .core .nest
  compile : w.compSem = .word
  plain : w.isImmediate = false
  open_ : w.isCompileOnly = false
  lower : s0.ds.here ≤ w.dfa
  upper : (Stmt.seq (q.place w.dfa) .exit).next w.dfa ≤ s.ds.here
  code : (Stmt.seq (q.place w.dfa) .exit).At s.refs (ix "leave") s.ds w.dfa
  turned : Turned ix s0 V i p q

/-- The machine is `s0`, which has loaded core.fth and rtf.fth, after the user defined the words `V`. There are `m` bytes of memory
left for definitions. -/
structure Spec.Kit (b : Nat) (ix : String → Nat) (text : List Char) (V : Vocabulary) (m : Nat) (s0 s : VM) : Prop where
  loaded : RtfLoaded b ix text s0
  refs : s.refs = s0.refs
  cur : s.cur = s0.cur
  start : s.ds.start = s0.ds.start
  cap : s.ds.cap = s0.ds.cap
  here : s0.ds.here ≤ s.ds.here
  bytes : ∀ x, x < s0.ds.here → s.ds.bytes x = s0.ds.bytes x
  words : ∀ (i : Nat) (w : Word), s0.wl.words[i]? = some w → s.wl.words[i]? = some w
  dict : Dict s
  space : SoundSpace s.ds
  names : ∀ nm, (∀ e, e ∈ V → ¬SameName nm (utf8 e.1)) → ∀ r, Newest s0 nm r → Newest s nm r
  novel : ∀ e, e ∈ V → Definable e.1
  size : s.wl.words.length = s0.wl.words.length + V.length
  count : s.wl.words.length + s0.ds.here ≤ 1000 + s.ds.here
  memory : s.ds.here + m ≤ s.ds.limit
  entries : ∀ newer name p older, V = newer ++ (name, p) :: older →
    ∃ w q, (Unused newer name → Newest s (utf8 name) (some (s0.wl.words.length + older.length))) ∧
      Entry ix s0 s older p (s0.wl.words.length + older.length) w q

/-- The machine is `s` with `l` on the data stack, `o` in the output buffer, `p` printed, and `k` answers of the user used up. -/
structure Spec.Sits (s0 : VM) (ix : String → Nat) (l : List Cell) (o : List Byte) (k : Nat) (p : List Byte) (u : VM) : Prop where
  refs : u.refs = s0.refs
  cur : u.cur = s0.cur
  ds : u.ds = s0.ds
  wl : u.wl = s0.wl
  handler : u.handler = ix "(abort)"
  data : data u = l
  calm : Calm u.task.s ∧ Calm u.task.r ∧ Calm u.task.c ∧ Calm u.task.f
  control : u.task.c.items = []
  labels : u.forward = []
  token : ∃ t, u.tkn = some t
  output : u.outbuf = some o
  error : u.lastError = none
  mode : u.task.st.isCompiling = false
  source : u.task.st.sourceId = 0
  input : ∃ buf, u.task.inbuf = some buf
  calls : u.host.calls = k
  stdout : u.stdout = p

section
variable {b m : Nat} {s0 s : VM} {ix : String → Nat} {text tok : List Char} {V : Vocabulary}

theorem Spec.SameName.symm {x y : List Byte} (h : SameName x y) : SameName y x := by
  rw [sameName_iff] at *; exact h.symm

theorem Spec.SameName.trans {x y z : List Byte} (h : SameName x y) (k : SameName y z) : SameName x z := by
  rw [sameName_iff] at *; exact h.trans k

theorem newest_same {nm nm' : List Byte} {r : Option Nat} (h : SameName nm nm') (hn : Newest s nm' r) : Newest s nm r := by
  have hv : ∀ j, Visible s nm' j ↔ Visible s nm j := by
    intro j
    simp only [Visible, sameName_iff] at h ⊢
    rw [h]
  cases r with
  | none => exact fun j k => hn j ((hv j).2 k)
  | some i => exact ⟨(hv _).1 hn.1, fun j hj k => hn.2 j hj ((hv j).2 k)⟩

/-- At first there are no words that the user defined. -/
theorem Spec.RtfLoaded.kit (h : RtfLoaded b ix text s) (hm : s.ds.here + m ≤ s.ds.limit) : Kit b ix text [] m s s :=
  ⟨h, rfl, rfl, rfl, rfl, Nat.le_refl _, fun _ _ => rfl, fun _ _ h => h, h.core.listening.dict, h.core.listening.space, fun _ _ _ h => h, nofun, rfl,
    by have := h.workshop.count; omega, hm, fun newer _ _ _ e => by cases newer <;> cases e⟩

theorem calcWords_rtf : ∀ n, n ∈ calcWords → n ∈ rtfWords := by decide +kernel

theorem Spec.Kit.free (hK : Kit b ix text V m s0 s) {name : String} (hn : name ∈ grammar) (h : Called tok name) : Unused V tok :=
  fun e he hs => hK.novel e he name hn (hs.symm.trans h)

theorem Spec.Kit.newest (hK : Kit b ix text V m s0 s) (hu : Unused V tok) {name : String} (h : Called tok name)
    {r : Option Nat} (k : Newest s0 (ascii name) r) : Newest s (utf8 tok) r :=
  hK.names _ hu r (newest_same h k)

theorem Spec.Unused.same {t : List Char} (h : Unused V tok) (k : SameName (utf8 tok) (utf8 t)) : Unused V t := fun e he hs => h e he (k.trans hs)

/-- The newest word of a name. -/
theorem newest_split : ∀ {V : Vocabulary} {e : List Char × Recipe}, e ∈ V → SameName (utf8 tok) (utf8 e.1) →
    ∃ newer e' older, V = newer ++ e' :: older ∧ Unused newer tok ∧ SameName (utf8 tok) (utf8 e'.1)
  | x :: V, e, he, hs => by
    by_cases hx : SameName (utf8 tok) (utf8 x.1)
    · exact ⟨[], x, V, rfl, nofun, hx⟩
    · rcases List.mem_cons.1 he with rfl | he
      · exact absurd hs hx
      · obtain ⟨newer, e', older, rfl, h1, h2⟩ := newest_split he hs
        exact ⟨x :: newer, e', older, rfl, fun y hy => (List.mem_cons.1 hy).elim (fun h => h ▸ hx) (h1 y), h2⟩

theorem split_unique : ∀ {n1 n2 o1 o2 : Vocabulary} {e1 e2 : List Char × Recipe}, n1 ++ e1 :: o1 = n2 ++ e2 :: o2 → Unused n1 tok → Unused n2 tok →
    SameName (utf8 tok) (utf8 e1.1) → SameName (utf8 tok) (utf8 e2.1) → o1 = o2
  | [], [], _, _, _, _, h, _, _, _, _ => by cases h; rfl
  | [], x :: n2, _, _, _, _, h, _, u2, s1, _ => by cases h; exact absurd s1 (u2 _ (by simp))
  | x :: n1, [], _, _, _, _, h, u1, _, _, s2 => by cases h; exact absurd s2 (u1 _ (by simp))
  | x :: n1, y :: n2, _, _, _, _, h, u1, u2, s1, s2 => by
    rw [List.cons_append, List.cons_append] at h
    injection h with _ h
    exact split_unique h (fun e he => u1 e (List.mem_cons_of_mem _ he)) (fun e he => u2 e (List.mem_cons_of_mem _ he)) s1 s2

theorem Spec.Kit.coded (hK : Kit b ix text V m s0 s) {lv lo hi : Nat} {D : List (String × Stmt)} (h : Coded s0.refs lv s0.wl lo hi s0.ds ix D)
    (hh : hi ≤ b + 11496) : Coded s.refs lv s.wl lo hi s.ds ix D := by
  intro e he
  obtain ⟨w, h1, h2, h3, h4, h5⟩ := h e he
  have := hK.loaded.workshop.lower
  rw [hK.refs]
  exact ⟨w, hK.words _ _ h1, h2, h3, h4, h5.congr fun z _ hz => hK.bytes z (by omega)⟩

theorem Spec.Kit.builtin (hK : Kit b ix text V m s0 s) {i : Nat} {n : String} (h : Builtin s0.wl i n) : Builtin s.wl i n := by
  obtain ⟨w, h1, h2⟩ := h
  exact ⟨w, hK.words _ _ h1, h2⟩

theorem Spec.Kit.length (hK : Kit b ix text V m s0 s) : s.wl.words.length + 1 < 2 ^ 64 := by
  have h1 := hK.count; have h2 := hK.space.small; have h3 := hK.space.inside
  have h4 : s.ds.here = s.ds.start + s.ds.len := rfl
  omega

theorem Spec.Kit.compiler (hK : Kit b ix text V m s0 s) : Compiler s.refs (ix "leave") s.wl := by
  rw [hK.refs]
  exact hK.loaded.workshop.compiler.mono hK.words (by have := hK.length; omega)

theorem Spec.Kit.equipped (hK : Kit b ix text V m s0 s) : Equipped (ix "leave") (b + 4176) (b + 7048) ix s := by
  have e := hK.loaded.repl.equipped
  have g := e.library.region
  exact ⟨hK.compiler.runtime, ⟨by rw [hK.start]; exact g.lower, by rw [hK.start, hK.cap]; exact g.upper, by rw [hK.start, hK.cap]; exact g.small⟩,
    fun n hn => hK.builtin (e.library.uses n hn), hK.coded e.library.coded (by omega)⟩

theorem Spec.Kit.base (hK : Kit b ix text V m s0 s) : (currentBase s).toInt = 10 := by
  have h0 := hK.loaded.core.decimal
  have h1 := hK.loaded.workshop.lower
  have h2 := hK.loaded.core.listening.space.vars
  have h3 : s0.ds.here = s0.ds.start + s0.ds.len := rfl
  rw [currentBase, DataSpace.baseAddr, hK.start, DataSpace.cellAt_congr fun z _ hz => hK.bytes z (by omega)]
  exact h0

/-- The code of the program is there in a machine that is `s` but for the memory after the definitions. -/
theorem Spec.Kit.still (hK : Kit b ix text V m s0 s) {u : VM} (h1 : u.refs = s.refs) (h2 : u.cur = s.cur) (h3 : u.ds.start = s.ds.start)
    (h4 : u.ds.cap = s.ds.cap) (h5 : ∀ x, x < s.ds.here → u.ds.bytes x = s.ds.bytes x)
    (h6 : ∀ (i : Nat) (w : Word), s.wl.words[i]? = some w → u.wl.words[i]? = some w) : StillLoaded (ix "leave") (rtfRegions b) s0 u := by
  have hl := hK.loaded.workshop.lower
  have hh := hK.here
  refine ⟨h1.trans hK.refs, fun g hg => ⟨h2.trans hK.cur, h3.trans hK.start, h4.trans hK.cap, fun x _ hx => ?_, fun r hr => ?_, fun i w hw => ?_⟩⟩
  · have : g.2 ≤ b + 11496 := by
      simp only [rtfRegions, List.mem_cons, List.not_mem_nil, or_false] at hg
      rcases hg with rfl | rfl | rfl <;> dsimp only <;> omega
    rw [h5 x (by omega), hK.bytes x (by omega)]
  · obtain ⟨w, k1, k2⟩ := hK.loaded.workshop.compiler.runtime r hr
    exact ⟨w, h6 _ _ (hK.words _ _ k1), k2⟩
  · exact ⟨w, h6 _ _ (hK.words _ _ hw), rfl, rfl⟩

end

section
variable {cfg : Cfg} {n b k m : Nat} {s s0 a u : VM} {ix : String → Nat} {text tok : List Char} {V : Vocabulary} {l l' : List Cell} {o out p : List Byte}

theorem Spec.Sits.newest (h : Sits s ix l o k p u) {nm : List Byte} {r : Option Nat} (hn : Newest s nm r) : Newest u nm r := by
  simpa only [Newest, Visible, h.wl, h.ds] using hn

theorem Spec.Sits.dict (h : Sits s ix l o k p u) (hK : Kit b ix text V m s0 s) : Dict u :=
  hK.dict.congr h.wl h.ds

theorem Spec.Sits.space (h : Sits s ix l o k p u) (hK : Kit b ix text V m s0 s) : SoundSpace u.ds := by
  rw [h.ds]; exact hK.space

theorem Spec.Sits.inSpace (h : Sits s ix l o k p u) (hK : Kit b ix text V m s0 s) : InSpace u :=
  ⟨(h.space hK).small, (h.space hK).inside⟩

theorem Spec.Sits.still (h : Sits s ix l o k p u) (hK : Kit b ix text V m s0 s) : StillLoaded (ix "leave") (rtfRegions b) s0 u :=
  hK.still h.refs h.cur (by rw [h.ds]) (by rw [h.ds]) (fun _ _ => by rw [h.ds]) (fun _ _ k => by rw [h.wl]; exact k)

theorem Spec.Sits.setData (h : Sits s ix l o k p u) (hl : l'.length ≤ capacity) : Sits s ix l' o k p (setData u l') := by
  have hc : capacity = 64 := rfl
  have ht : (Verif.Spec.setData u l').task = { u.task with s := holding u.task.s l' } := VM.task_setTask u _
  refine ⟨h.refs, h.cur, h.ds, h.wl, h.handler, data_setData (by omega), ?_, ?_, h.labels, h.token, h.output, h.error, ?_, ?_, ?_, h.calls, h.stdout⟩
  · rw [ht]; exact ⟨h.calm.1.holding hl, h.calm.2⟩
  · rw [ht]; exact h.control
  · rw [ht]; exact h.mode
  · rw [ht]; exact h.source
  · rw [ht]; exact h.input

theorem Spec.Sits.notes (h : Sits s ix l o k p u) (hld : List Byte) : Sits s ix l (o ++ out) k p (noted (printed u out) hld) :=
  ⟨h.refs, h.cur, h.ds, h.wl, h.handler, h.data, h.calm, h.control, h.labels, h.token, by show u.outbuf.map _ = _; rw [h.output]; rfl, h.error, h.mode, h.source,
    h.input, h.calls, h.stdout⟩

theorem Spec.Sits.prints (h : Sits s ix l o k p u) (out : List Byte) : Sits s ix l (o ++ out) k p (printed u out) := by
  have := h.notes (out := out) u.hldbuf
  exact this

theorem Spec.Sits.took (h : Sits s ix l o k p u) (pre bs t : List Char) : Sits s ix l o k p (took u pre bs t) := by
  have ht := took_task u pre bs t
  refine ⟨h.refs, h.cur, h.ds, h.wl, h.handler, by rw [data_took]; exact h.data, ?_, ?_, h.labels, ⟨_, rfl⟩, h.output, h.error, ?_, ?_, ?_, h.calls, h.stdout⟩
  · rw [ht]; exact h.calm
  · rw [ht]; exact h.control
  · rw [ht]; exact h.mode
  · rw [ht]; exact h.source
  · rw [ht]; exact h.input

theorem Spec.Kit.word (hK : Kit b ix text V m s0 s) (h : Sits s ix l o k p a) (hu : Unused V tok) {name : String} (hn : name ∈ calcWords)
    (ht : Called tok name) : Newest a (utf8 tok) (some (ix name)) ∧
      ∃ w, a.wl.words[ix name]? = some w ∧ w.isCompileOnly = false := by
  obtain ⟨h1, w, h2⟩ := hK.loaded.calcs name hn
  exact ⟨h.newest (hK.newest hu ht h1), w, by rw [h.wl]; exact ⟨hK.words _ _ h2.1, h2.2⟩⟩

theorem calcWords_prim {name : String} (hn : name ∈ effects.map (·.1) ++ ["/", "mod", "abort"]) : name ∈ calcWords := by
  simp only [calcWords, List.mem_append, List.mem_cons, List.not_mem_nil, or_false] at hn ⊢
  rcases hn with hn | hn | hn | hn <;> simp [hn]

theorem Spec.Kit.prim (hK : Kit b ix text V m s0 s) (h : Sits s ix l o k p a) {name : String}
    (hn : name ∈ effects.map (·.1) ++ ["/", "mod", "abort"]) :
    ∃ w, a.wl.words[ix name]? = some w ∧ w.isCompileOnly = false ∧ primOf name = some w.action := by
  obtain ⟨-, w, h2, h3⟩ := hK.loaded.calcs name (calcWords_prim hn)
  obtain ⟨w', h4, h5⟩ := hK.builtin (hK.loaded.basic name hn)
  have h2 := hK.words _ _ h2
  rw [h2] at h4; cases h4
  exact ⟨w, by rw [h.wl]; exact h2, h3, h5⟩

theorem Spec.Kit.unknown (hK : Kit b ix text V m s0 s) (h : Sits s ix l o k p a) (hn : NoWord tok) (hu : Unused V tok) (ht : a.tkn = some tok)
    (c : Ctx) : UnknownToken c a tok := by
  refine ⟨ht, ?_⟩
  obtain ⟨r, h1, h2⟩ := C20_find (h.dict hK) (h.inSpace hK) c (utf8 tok)
  cases C20_unique h2 (h.newest (hK.names _ hu _ (hK.loaded.others (utf8 tok) hn)))
  exact h1

theorem Spec.Sits.equipped (h : Sits s ix l o k p a) (hK : Kit b ix text V m s0 s) :
    Equipped (ix "leave") (b + 4176) (b + 7048) ix a := by
  have e := hK.equipped
  exact ⟨by rw [h.refs, h.wl]; exact e.words, by rw [h.refs, h.wl, h.ds]; exact e.library⟩

theorem Spec.Sits.base (h : Sits s ix l o k p a) (hK : Kit b ix text V m s0 s) : (currentBase a).toInt = 10 := by
  have := hK.base
  rw [currentBase] at this ⊢
  rw [h.ds]; exact this

theorem doing_mod {R : Refs} {wl : Wordlist} {lv lo hi i : Nat} {k : Fin 5} {d m : DataSpace} {r : List Cell} {a b : Cell} (hb : Builtin wl i "mod") (hl : l.length + 2 ≤ capacity) (hr : r.length ≤ capacity)
    (h : b ≠ 0) : Doing cfg n R lv wl lo hi k d i (shape s (b :: a :: l) r m) (shape s (a.srem b :: l) r m) := by
  obtain ⟨w, hw, hp⟩ := hb
  have hp' := prim_inj hp (p := .core .mod) rfl
  simp only [capacity] at hl
  refine doing_data hw (by simp [capacity]; omega) hr (by simp [capacity]; omega)
    (fun u v k1 k2 k3 _ _ _ _ _ => ?_)
  have hr1 := items_eq_iff.mp k1
  refine ⟨_, ?_, (LikeStack.refl _).of_to (hr1.toBinop BitVec.srem) (by simp; omega) (by simp; omega)⟩
  rw [hp']
  simp only [action, coreAction, divOp, M.bind_apply, getTask_apply, hr1.top, M.ite_apply, h, if_false]
  simp [modS]

theorem call_dot {R : Refs} {wl : Wordlist} {lv lo hi : Nat} {k : Fin 5} {d m : DataSpace} {r : List Cell} {x : Cell} {txt : List Byte}
    (B : Library R lv wl lo hi d ix) (D : Coded R lv wl lo hi d ix (dotCode ix)) (hb : Builtin wl (ix ".r") ".r") (hm : SoundSpace m)
    (ho : s.outbuf ≠ none) (ht : fmtBase (m.cellAt m.baseAddr) x = some txt) (hl : l.length + 3 ≤ capacity) (hr : r.length + 2 ≤ capacity) :
    Calling cfg n R lv wl lo hi k d (ix ".") (shape s (x :: l) r m) (shape (noted (printed s (txt ++ [32])) txt) l r m) := by
  have g := B.region
  have hc : capacity = 64 := rfl
  have e : noted (printed s (txt ++ [32])) txt = printed (noted (printed s txt) txt) [32] := by
    rw [← printed_printed]; rfl
  rw [e]
  refine D.call g 0 rfl (by len) (by len) (by len) fun z q => ?_
  steps; number
  calls doing_dotR hb hm ho ht (by len) (by len)
  colon call_space B (by len) (by len)
  exact .skip

/-- `.r` with any width. -/
theorem doing_padded {R : Refs} {wl : Wordlist} {lv lo hi i : Nat} {k : Fin 5} {d m : DataSpace} {r : List Cell} {x w : Cell} {txt : List Byte}
    (hb : Builtin wl i ".r") (hm : SoundSpace m) (ho : s.outbuf ≠ none)
    (ht : fmtBase (m.cellAt m.baseAddr) x = some txt) (hw : -2 ^ 62 ≤ w.toInt) (hl : l.length + 2 ≤ capacity) (hr : r.length ≤ capacity) :
    Doing cfg n R lv wl lo hi k d i (shape s (w :: x :: l) r m)
      (shape (noted (printed s (List.replicate (w.toInt - txt.length).toNat 32 ++ txt)) txt) l r m) := by
  obtain ⟨wd, hwd, hp⟩ := hb
  have hp' := prim_inj hp (p := .out .dotR) rfl
  have hc : capacity = 64 := rfl
  generalize hpad : List.replicate (w.toInt - txt.length).toNat (32 : Byte) = pad
  rw [noted_beside, printed_beside, beside_beside, sideOf_beside]
  refine doing_beside hwd (by len) hr (by omega) fun v k1 k2 k3 k4 => ⟨v.task.s.pop2.2, ?_, by rw [pop2_holding k1]; exact .refl _⟩
  rw [hp']
  have hout : v.outbuf = s.outbuf := congrArg Side.outbuf k3
  obtain ⟨b, hb⟩ := Option.ne_none_iff_exists'.1 ho
  have hl65 := (fmtBase_token _ _ _ ht).2.2
  have hpad : padding cfg.overflowChecks w txt.length = .ok pad := by
    rw [padding_fits (by omega) hw, hpad]
  have hr1 := items_eq_iff.1 k1
  have hbase := baseCell_ok (d := v.ds) (by rw [k2]; exact hm)
  show dotR _ v = _
  unfold dotR
  rw [M.bind_ok (dsRd_ok hbase), M.bind_ok (sPop2_apply v), hr1.pop2_fst]
  simp only
  rw [k2]
  generalize fmtBase (m.cellAt m.baseAddr) x = y at ht ⊢
  subst ht
  simp only [M.bind_apply, getVM_apply, VM.outbuf_setTask, hout, hb, modVM_apply, Ctx.oc, hpad, liftE_ok, outBytes, Option.map_some]
  have e : sideOf (v.setTask { v.task with s := v.task.s.pop2.2 }) = sideOf s := by
    rw [← k3, sideOf, VM.task_setTask]; rfl
  rw [← e]
  congr 2
  unfold beside
  have e2 : ({ sideOf (v.setTask { v.task with s := v.task.s.pop2.2 }) with outbuf := some (b ++ (pad ++ txt)), hldbuf := txt } : Side).on
    (v.setTask { v.task with s := v.task.s.pop2.2 }).task = (v.setTask { v.task with s := v.task.s.pop2.2 }).task := rfl
  rw [e2, VM.setTask_task]
  rfl

theorem sdiv_wrap (x y : Cell) : x.sdiv y = wrap (x.toInt.tdiv y.toInt) := by
  refine BitVec.eq_of_toInt_eq ?_
  rw [BitVec.toInt_sdiv, wrap, BitVec.toInt_ofInt]

theorem srem_wrap (x y : Cell) : x.srem y = wrap (x.toInt.tmod y.toInt) := by
  rw [wrap, ← BitVec.toInt_srem, BitVec.ofInt_toInt]

theorem Spec.Sits.setRet (h : Sits s ix l o k p u) {r : List Cell} (hr : r.length ≤ capacity) : Sits s ix l o k p (setRet u r) := by
  have ht : (Verif.Spec.setRet u r).task = { u.task with r := holding u.task.r r } := VM.task_setTask u _
  refine ⟨h.refs, h.cur, h.ds, h.wl, h.handler, (setRet_data _ _).trans h.data, ?_, ?_, h.labels, h.token, h.output, h.error, ?_, ?_, ?_, h.calls, h.stdout⟩
  · rw [ht]; exact ⟨h.calm.1, h.calm.2.1.holding hr, h.calm.2.2⟩
  · rw [ht]; exact h.control
  · rw [ht]; exact h.mode
  · rw [ht]; exact h.source
  · rw [ht]; exact h.input

/-- The line being read and the current token. -/
def Spec.feed (s : VM) : Option (List Char) × Option (List Char) := (s.task.inbuf, s.tkn)

/-- What a word of the calculator does, wherever it is called from. -/
def Spec.Performs (cfg : Cfg) (n : Nat) (s : VM) (ix : String → Nat) (name : String) (l' : List Cell) (o : List Byte) (k : Nat) (p : List Byte) (a : VM) : Prop :=
  ∃ c, (∀ r : List Cell, r.length + 4 ≤ capacity → Acts cfg (n + 1) (ix name) (Verif.Spec.setRet a r) (Verif.Spec.setRet c r)) ∧ Sits s ix l' o k p c ∧
    feed c = feed a ∧ c.task.st = a.task.st

/-- A token that is not an integer is a word. -/
theorem Spec.Calculates.does (hT : Calculates tok l l' out) (hK : Kit b ix text V m s0 s) (h : Sits s ix l o k p a)
    (hl : l.length + 4 ≤ capacity) (hl' : l'.length + 4 ≤ capacity) :
    (∃ v, NoWord tok ∧ IntegerToken 10 (utf8 tok) v ∧ l' = v :: l ∧ out = []) ∨
    ∃ name, name ∈ calcWords ∧ Called tok name ∧ Performs cfg n s ix name l' (o ++ out) k p a := by
  have hc : capacity = 64 := rfl
  have hd := h.data
  have hset : ∀ (name : String) (l1 : List Cell), l1.length ≤ capacity →
      (∀ r : List Cell, r.length + 4 ≤ capacity → Acts cfg (n + 1) (ix name) (setRet a r) (setData (setRet a r) l1)) →
      Performs cfg n s ix name l1 (o ++ []) k p a := by
    intro name l1 h1 h2
    have : (setData a l1).task = { a.task with s := holding a.task.s l1 } := VM.task_setTask a _
    exact ⟨_, fun r hr => by rw [setRet_setData]; exact h2 r hr, by rw [List.append_nil]; exact h.setData h1, by rw [feed, feed, this]; rfl, by rw [this]⟩
  have hout : ∀ (name : String) (l1 : List Cell) (out : List Byte), l1.length ≤ capacity →
      (∀ r : List Cell, r.length + 4 ≤ capacity → Acts cfg (n + 1) (ix name) (setRet a r) (shape (printed (setRet a r) out) l1 (ret (setRet a r)) (setRet a r).ds)) →
      Performs cfg n s ix name l1 (o ++ out) k p a := by
    intro name l1 out h1 h2
    have : (setData a l1).task = { a.task with s := holding a.task.s l1 } := VM.task_setTask a _
    refine ⟨printed (setData a l1) out, fun r hr => ?_, (h.setData h1).prints out, ?_, ?_⟩
    · have e : setRet (printed (setData a l1) out) r = shape (printed (setRet a r) out) l1 (ret (setRet a r)) (setRet a r).ds := by
        rw [show shape (printed (setRet a r) out) l1 (ret (setRet a r)) (setRet a r).ds = printed (shape (setRet a r) l1 (ret (setRet a r)) (setRet a r).ds) out from rfl,
          shape_setData, ← setRet_setData]; rfl
      rw [e]; exact h2 r hr
    · show ((setData a l1).task.inbuf, a.tkn) = _
      rw [this]; rfl
    · show (setData a l1).task.st = _
      rw [this]
  cases hT with
  | @integer v _ hn hv => exact .inl ⟨v, hn, hv, rfl, rfl⟩
  | @emit v _ hs =>
    simp only [List.length_cons] at hl
    refine .inr ⟨"emit", by simp [calcWords], hs, hout _ _ _ (by omega) fun r hr => ?_⟩
    have h2 := h.setRet (r := r) (by omega)
    exact (h2.equipped hK).acts h2.data (Doing.calling (doing_emit (by rw [h2.wl]; exact hK.builtin (hK.loaded.repl.uses _ (by simp [replUses]))) (by omega)
      (by rw [ret_setRet (by omega)]; omega)) rfl)
  | @space _ hs =>
    refine .inr ⟨"space", by simp [calcWords], hs, hout _ _ _ (by omega) fun r hr => ?_⟩
    have h2 := h.setRet (r := r) (by omega)
    have e := h2.equipped hK
    exact e.acts h2.data (call_space e.library (by omega) (by rw [ret_setRet (by omega)]; omega))
  | @cr _ hs =>
    refine .inr ⟨"cr", by simp [calcWords], hs, hout _ _ _ (by omega) fun r hr => ?_⟩
    have h2 := h.setRet (r := r) (by omega)
    have e := h2.equipped hK
    exact e.acts h2.data (call_cr e.library (by omega) (by rw [ret_setRet (by omega)]; omega))
  | @spaces v _ hs =>
    simp only [List.length_cons] at hl
    refine .inr ⟨"spaces", by simp [calcWords], hs, hout _ _ _ (by omega) fun r hr => ?_⟩
    have h2 := h.setRet (r := r) (by omega)
    have e := h2.equipped hK
    exact e.acts h2.data (call_spaces e.library (by omega) (by rw [ret_setRet (by omega)]; omega))
  | @dotR v w _ txt hs hw htx =>
    simp only [List.length_cons] at hl
    have hf := fmtBase_ten (h.base hK) v
    rw [← htx] at hf
    generalize hpt : List.replicate (w.toInt - txt.length).toNat (32 : Byte) ++ txt = out
    have hcm := ((h.setData (l' := l') (by omega)).notes (out := out) txt)
    have e0 : ∀ r, Verif.Spec.setRet (noted (printed (setData a l') out) txt) r = noted (printed (setData (Verif.Spec.setRet a r) l') out) txt := by
      intro r; rw [← setRet_setData]; rfl
    refine .inr ⟨".r", by simp [calcWords], hs, noted (printed (setData a l') out) txt, fun r hr => ?_, hcm, ?_, ?_⟩
    · have h2 := h.setRet (r := r) (by omega)
      rw [e0]
      have e := h2.equipped hK
      have e1 : noted (printed (setData (Verif.Spec.setRet a r) l') out) txt =
          shape (noted (printed (Verif.Spec.setRet a r) out) txt) l' (ret (Verif.Spec.setRet a r)) (Verif.Spec.setRet a r).ds := by
        rw [← shape_setData]; rfl
      rw [e1, ← hpt]
      exact e.acts h2.data (Doing.calling (doing_padded (by rw [h2.wl]; exact hK.builtin (hK.loaded.repl.uses _ (by simp [replUses]))) (h2.space hK)
        (by rw [h2.output]; simp) hf hw (by omega) (by rw [ret_setRet (by omega)]; omega)) rfl)
    · show ((setData a l').task.inbuf, a.tkn) = _
      rw [Verif.Spec.setData, VM.task_setTask]; rfl
    · show (setData a l').task.st = _
      rw [Verif.Spec.setData, VM.task_setTask]
  | @word name e _ _ he hs hy =>
    refine .inr ⟨name, ?_, hs, hset name _ (by omega) fun r hr => ?_⟩
    · exact calcWords_prim (List.mem_append_left _ (List.mem_map_of_mem (f := fun x => x.1) he))
    · have h2 := h.setRet (r := r) (by omega)
      obtain ⟨w, w2, w3, w4⟩ := hK.prim h (List.mem_append_left _ (List.mem_map_of_mem (f := fun x => x.1) he))
      have hi := h.inSpace hK
      have g : Region a.ds a.ds.start a.ds.start := ⟨Nat.le_refl _, by simp, hi.1⟩
      have hL : Loaded a.refs (ix "leave") a.wl a.ds.start a.ds.start a.cur a.ds (setRet a r) :=
        ⟨rfl, rfl, rfl, fun _ _ _ => rfl, (h.equipped hK).words, fun _ w hw => ⟨w, hw, rfl, rfl⟩⟩
      exact (basic_acts g hL (.effect w2 he w4 (by rw [h2.data]; exact hy) (by rw [h2.data]; omega) (by omega))).1
  | @library name j e _ _ he hs hy =>
    refine .inr ⟨name, ?_, hs, hset name _ (by omega) fun r hr => ?_⟩
    · simp only [calcWords, List.mem_append]
      exact .inl (.inr (List.mem_map_of_mem (f := fun x => x.1) he))
    · have hj : j ≤ 2 := by
        have : ∀ x, x ∈ libraryEffects.map (·.2.1) → x ≤ 2 := by decide
        exact this j (List.mem_map_of_mem (f := fun x => x.2.1) he)
      have h2 := h.setRet (r := r) (by omega)
      exact C45_stack (h2.equipped hK) he (by rw [h2.data]; exact hy) (by rw [h2.data]; omega) (by rw [ret_setRet (by omega)]; omega)
  | @divide name f x y l1 hm hs hy =>
    simp only [List.length_cons] at hl hl'
    have hin : name ∈ ["/", "mod"] := by
      simp only [divisions, List.mem_cons, Prod.mk.injEq, List.not_mem_nil, or_false] at hm
      rcases hm with ⟨rfl, -⟩ | ⟨rfl, -⟩ <;> simp
    have hbas : name ∈ effects.map (·.1) ++ ["/", "mod", "abort"] := by
      refine List.mem_append_right _ ?_
      simp only [List.mem_cons, List.not_mem_nil, or_false] at hin ⊢
      rcases hin with h | h <;> simp [h]
    refine .inr ⟨name, calcWords_prim hbas, hs, hset name _ (by simp; omega) fun r hr => ?_⟩
    · have h2 := h.setRet (r := r) (by omega)
      have hw : Builtin (setRet a r).wl (ix name) name := by
        rw [h2.wl]; exact hK.builtin (hK.loaded.basic name hbas)
      rw [← shape_setData]
      refine (h2.equipped hK).acts h2.data (Doing.calling ?_ rfl)
      have hr2 : (ret (setRet a r)).length ≤ capacity := by rw [ret_setRet (by omega)]; omega
      simp only [divisions, List.mem_cons, Prod.mk.injEq, List.not_mem_nil, or_false] at hm
      rcases hm with ⟨rfl, rfl⟩ | ⟨rfl, rfl⟩
      · rw [← sdiv_wrap]; exact doing_slash hw (by omega) hr2 hy
      · rw [← srem_wrap]; exact doing_mod hw (by omega) hr2 hy
  | @dot v _ hs =>
    simp only [List.length_cons] at hl
    generalize htx : ascii (toString v.toInt) = txt
    have hf := fmtBase_ten (h.base hK) v
    rw [htx] at hf
    have hcm := ((h.setData (l' := l') (by omega)).notes (out := txt ++ [32]) txt)
    have e0 : ∀ r, Verif.Spec.setRet (noted (printed (setData a l') (txt ++ [32])) txt) r =
        noted (printed (setData (Verif.Spec.setRet a r) l') (txt ++ [32])) txt := by
      intro r; rw [← setRet_setData]; rfl
    refine .inr ⟨".", by simp [calcWords], hs, noted (printed (setData a l') (txt ++ [32])) txt, fun r hr => ?_, hcm, ?_, ?_⟩
    · have h2 := h.setRet (r := r) (by omega)
      rw [e0]
      have e := h2.equipped hK
      have e1 : noted (printed (setData (Verif.Spec.setRet a r) l') (txt ++ [32])) txt =
          shape (noted (printed (Verif.Spec.setRet a r) (txt ++ [32])) txt) l' (ret (Verif.Spec.setRet a r)) (Verif.Spec.setRet a r).ds := by
        rw [← shape_setData]; rfl
      rw [e1]
      refine e.acts h2.data (call_dot e.library ?_ ?_ (h2.space hK) (by rw [h2.output]; simp) ?_ (by omega) (by rw [ret_setRet (by omega)]; omega))
      · rw [h2.refs, h2.wl, h2.ds]; exact hK.coded hK.loaded.dot (by omega)
      · rw [h2.wl]; exact hK.builtin (hK.loaded.repl.uses _ (by simp [replUses]))
      · exact hf
    · show ((setData a l').task.inbuf, a.tkn) = _
      rw [Verif.Spec.setData, VM.task_setTask]; rfl
    · show (setData a l').task.st = _
      rw [Verif.Spec.setData, VM.task_setTask]

/-- A good token. -/
theorem Spec.Calculates.evaluates (hT : Calculates tok l l' out) (hK : Kit b ix text V m s0 s) (hu : Unused V tok) (h : Sits s ix l o k p a)
    (ht : a.tkn = some tok) (hl : l.length + 4 ≤ capacity) (hl' : l'.length + 4 ≤ capacity) {room : Nat} (hroom : 4 ≤ room) :
    ∃ c, Evaluates cfg (n + 1) room a c ∧ Sits s ix l' (o ++ out) k p c ∧ c.task.inbuf = a.task.inbuf ∧ c.task.st = a.task.st := by
  have hc : capacity = 64 := rfl
  have hd := h.data
  rcases hT.does (cfg := cfg) (n := n) hK h hl hl' with ⟨v, hn, hv, rfl, rfl⟩ | ⟨name, h1, h2, c, c1, c2, c3, c4⟩
  · have : (setData a (v :: l)).task = { a.task with s := holding a.task.s (v :: l) } := VM.task_setTask a _
    refine ⟨setData a (v :: l), ?_, by rw [List.append_nil]; exact h.setData (by omega), by rw [this], by rw [this]⟩
    have := C64_integer (cfg := cfg) (n := n + 1) (room := room) (h.space hK) (hK.unknown h hn hu ht _) h.mode (by rw [h.base hK]; exact hv) h.error
      (by rw [hd]; omega) h.calm
    rwa [hd] at this
  · obtain ⟨w1, w, w2, w3⟩ := hK.word h hu h1 h2
    exact ⟨c, C64_word (w := w) (h.dict hK) (h.inSpace hK) ht w1 w2 (by rw [h.mode]; exact w3) (fun r hr => c1 r (by omega)) (by rw [c2.error, h.error])
      (by rw [c2.data]; omega) c2.calm, c2, congrArg Prod.fst c3, c4⟩

end
end Verif
