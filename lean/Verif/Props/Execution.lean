import Verif.Lemmas.Reach

/-!
# Properties of every execution (C10, C36, C40) and of what each word may change
-/

namespace Verif
open Spec

/-! ## What a word may change -/

/-- The one word that changes a kind, if there is just one, for the kinds of interest below. -/
theorem Spec.footprint_unique (p : Prim) :
    (.handler ∈ footprint p → p = .core .handlerStore) ∧ (.switch ∈ footprint p → p = .core .pause) ∧
    (.activate ∈ footprint p → p = .core .activate) ∧
    (.awake ∈ footprint p → p = .core .suspend ∨ p = .core .resume) ∧
    (.standardError ∈ footprint p → p = .tool .flushToErr) ∧
    (.wordForget ∈ footprint p → p = .core .unmark) := by
  cases p with
  | core p => cases p <;> decide
  | out p => cases p <;> decide
  | tool p => cases p <;> decide
  | env p => cases p <;> decide
  | flt p => cases p <;> decide
  | unit p => cases p <;> decide
  | file p => cases p <;> decide
  | load p => cases p <;> decide
  | receive => decide

theorem Spec.Change.handler {k : Kind} {u v : VM} (hc : Change k u v) (hk' : k ≠ .handler) :
    v.handler = u.handler := by
  cases k <;> simp only [Change] at hc
  case handler => exact absurd rfl hk'
  case sourceOpen => obtain ⟨src, ⟨p, -, rfl⟩ | rfl⟩ := hc <;> rfl
  all_goals
    first
    | (obtain ⟨_, rfl⟩ := hc; rfl)
    | (obtain ⟨_, _, rfl⟩ := hc; rfl)
    | (obtain ⟨_, _, _, rfl⟩ := hc; rfl)
    | (obtain ⟨_, _, _, _, rfl⟩ := hc; rfl)
    | (obtain ⟨_, _, _, _, _, rfl⟩ := hc; rfl)
    | (obtain ⟨_, _, _, _, _, _, rfl⟩ := hc; rfl)
    | (subst hc; rfl)

/-- The handler is a given word. -/
def Spec.Inv.quiet (K : List Kind) (hK : .handler ∉ K) (i : Nat) : Inv K where
  holds s := s.handler = i
  keep _ _ _ hk hc hs := (hc.handler fun e => hK (e ▸ hk)).trans hs

/-- C53. A word makes no change outside its footprint, apart from what the handler does if it raises an
error (`L`), and apart from the words that run other words by design. -/
theorem C53_footprint (c : Ctx) (p : Prim) (he : executes p = false) (L : List Kind)
    {s s' : VM} {u : Unit} (hl : .handler ∉ L)
    (hq : raises p = true → ∀ x y, InSpace x → x.handler = s.handler → c.ex s.handler x = .ok ((), y) →
      Changes L x y)
    (hi : InSpace s) (h : action c p s = .ok (u, s')) : Changes (footprint p ++ L) s s' := by
  cases hr : raises p with
  | false =>
    refine (Does.action (A := Inv.any (footprint p)) p (fun e => ?_) (fun e => ?_) (fun _ hk => hk) s u s'
      ⟨hi, trivial⟩ h).mono fun k hk => List.mem_append_left _ hk
    · rw [hr] at e; cases e
    · rw [he] at e; cases e
  | true =>
    have hf : .handler ∉ footprint p ++ L := by
      intro e
      rcases List.mem_append.1 e with e | e
      · rw [(footprint_unique p).1 e] at hr; cases hr
      · exact hl e
    refine Does.action (A := Inv.quiet _ hf s.handler) p (fun _ => ?_) (fun e => ?_)
      (fun k hk => List.mem_append_left _ hk) s u s' ⟨hi, rfl⟩ h
    · intro x _ y hx e
      have := hq hr x y hx.1 hx.2
      rw [runHandler, show x.handler = s.handler from hx.2] at e
      exact (this e).mono fun k hk => List.mem_append_right _ hk
    · rw [he] at e; cases e

/-- C53. In particular a word that raises no errors makes no change outside its footprint. -/
theorem C53_footprint_quiet (c : Ctx) (p : Prim) (he : executes p = false) (hr : raises p = false)
    {s s' : VM} {u : Unit} (hi : InSpace s) (h : action c p s = .ok (u, s')) :
    Changes (footprint p) s s' :=
  (C53_footprint c p he [] (by simp) (fun e => by rw [hr] at e; cases e) hi h).mono
    fun k hk => by rwa [List.append_nil] at hk

theorem Spec.Change.words {k : Kind} {u v : VM} (hc : Change k u v) (h1 : k ≠ .wordAdd)
    (h2 : k ≠ .wordLast) (h3 : k ≠ .wordForget) (h4 : k ≠ .wordTime) : v.wl.words = u.wl.words := by
  cases k <;> simp only [Change] at hc
  case wordAdd => exact absurd rfl h1
  case wordLast => exact absurd rfl h2
  case wordForget => exact absurd rfl h3
  case wordTime => exact absurd rfl h4
  case sourceOpen => obtain ⟨src, ⟨p, -, rfl⟩ | rfl⟩ := hc <;> rfl
  all_goals
    first
    | (obtain ⟨_, rfl⟩ := hc; rfl)
    | (obtain ⟨_, _, rfl⟩ := hc; rfl)
    | (obtain ⟨_, _, _, rfl⟩ := hc; rfl)
    | (obtain ⟨_, _, _, _, rfl⟩ := hc; rfl)
    | (obtain ⟨_, _, _, _, _, rfl⟩ := hc; rfl)
    | (obtain ⟨_, _, _, _, _, _, rfl⟩ := hc; rfl)
    | (subst hc; rfl)

/-- The handler is word 0, which does nothing. -/
def Spec.Inv.default (K : List Kind)
    (hK : ∀ k, k ∈ K → k ∉ [Kind.handler, .wordAdd, .wordLast, .wordForget, .wordTime]) : Inv K where
  holds s := s.handler = 0 ∧ ∃ w, s.wl.words[0]? = some w ∧ w.action = .core .noop
  keep k _ _ hk hc hs := by
    have h := hK k hk
    simp only [List.mem_cons, List.not_mem_nil, or_false, not_or] at h
    exact ⟨(hc.handler h.1).trans hs.1, by rw [hc.words h.2.1 h.2.2.1 h.2.2.2.1 h.2.2.2.2]; exact hs.2⟩

/-- C53. With the default handler, word 0, which does nothing, a word that defines nothing changes
nothing outside its footprint but the record of the word being run. -/
theorem C53_footprint_default (cfg : Cfg) (depth : Nat) (p : Prim) (he : executes p = false)
    {s s' : VM} {u : Unit} (hi : InSpace s) (h0 : s.handler = 0)
    (hw : ∀ k, k ∈ footprint p → k ∉ [Kind.handler, .wordAdd, .wordLast, .wordForget, .wordTime])
    (hn : ∃ w, s.wl.words[0]? = some w ∧ w.action = .core .noop)
    (h : action (ctx cfg depth) p s = .ok (u, s')) : Changes (.wp :: footprint p) s s' := by
  have hK : ∀ k, k ∈ Kind.wp :: footprint p →
      k ∉ [Kind.handler, .wordAdd, .wordLast, .wordForget, .wordTime] := by
    intro k hk
    rcases List.mem_cons.1 hk with rfl | hk
    · decide
    · exact hw k hk
  refine Does.action (A := Inv.default _ hK) p (fun _ => ?_) (fun e => by rw [he] at e; cases e)
    (fun k hk => List.mem_cons_of_mem _ hk) s u s' ⟨hi, h0, hn⟩ h
  intro x a y hx e
  obtain ⟨hx0, w, hw0, hwn⟩ := hx.2
  rw [runHandler, hx0] at e
  cases depth with
  | zero => cases e
  | succ depth =>
    simp only [ctx, execWord] at e
    obtain ⟨_, z, e1, e2⟩ := M.bind_inv e
    cases e1
    rw [M.bind_apply, getWl_apply] at e2
    simp only [hw0, hwn, VM.setTask] at e2
    cases e2
    exact .one (List.mem_cons_self ..) ⟨0, rfl⟩

/-- C53. If all the words it may call stay within `K`, and so does its footprint, so does the word. -/
theorem C53_footprint_calls (c : Ctx) (p : Prim) (K : List Kind)
    (hc : ∀ i, Does (Inv.any K) (c.ex i)) (hk : ∀ k, k ∈ footprint p → k ∈ K) {s s' : VM} {u : Unit}
    (hi : InSpace s) (h : action c p s = .ok (u, s')) : Changes K s s' :=
  Does.action p (fun _ => Does.runHandler hc) (fun _ => hc) hk s u s' ⟨hi, trivial⟩ h

/-- `rot` calls no other word, and changes the data stack at most. -/
example : executes (.core .rot) = false ∧ raises (.core .rot) = false ∧ footprint (.core .rot) = [.dataStack] ∧
    InSpace (VM.blank 4096 4096) :=
  ⟨rfl, rfl, rfl, by decide, by decide⟩

/-! ## What a machine may change -/

/-- C54. If all words of a machine, and all words that can be defined, are confined to the kinds of
change `K`, so is every execution, and so are all words it defines. -/
theorem C54_confined {cfg : Cfg} {K : List Kind} (hin : ∀ k, k ∈ interpreterKinds → k ∈ K) {s t : VM}
    (h : Reach cfg s t) (hi : InSpace s) (ha : Able K s) : Changes K s t ∧ Able K t := by
  have hf : Fit (Inv.able K) s := ⟨hi, ha⟩
  have := h.does (Does.confined_able K) hin hf
  exact ⟨this, (this.fit hf).2⟩

/-- All kinds but one. -/
theorem Spec.able_filter {bad : Kind → Bool} {s : VM}
    (hd : ∀ p, p ∈ definedActions → ∀ k, k ∈ footprint p → bad k = false)
    (hw : ∀ w, w ∈ s.wl.words → ∀ k, k ∈ footprint w.action → bad k = false) :
    Able (runKinds.filter fun k => !bad k) s := by
  have key : ∀ p k, k ∈ footprint p → bad k = false → k ∈ runKinds.filter fun k => !bad k :=
    fun p k hk hb => List.mem_filter.2
      ⟨List.mem_cons_of_mem _ (Does.footprint_wordKinds p k hk), by rw [hb]; rfl⟩
  exact ⟨fun _ p hp k hk => key p k hk (hd p hp k hk), fun w hw' k hk => key _ k hk (hw w hw' k hk)⟩

/-- C54. On a machine without the word `handler!`, no execution, whatever the program, changes the
handler. -/
theorem C54_handler {cfg : Cfg} {s t : VM} (h : Reach cfg s t) (hi : InSpace s)
    (hw : ∀ w, w ∈ s.wl.words → w.action ≠ .core .handlerStore) : t.handler = s.handler := by
  have ha : Able (runKinds.filter fun k => !(k == .handler)) s := by
    refine able_filter (by decide) fun w h1 k h2 => ?_
    rw [beq_eq_false_iff_ne]
    rintro rfl
    exact hw w h1 ((footprint_unique _).1 h2)
  refine (C54_confined (by decide) h hi ha).1.keep (P := fun t => t.handler = s.handler) ?_ rfl
  intro k u v hk hc hu
  have hk' : k ≠ .handler := by
    rintro rfl
    exact absurd hk (by decide)
  exact (hc.handler hk').trans hu

/-- A machine with three words, on which no program changes the handler. -/
example : ∀ w, w ∈ [Word.new (.core .dup) .word 4112 4120, Word.new (.core .colon) .word 4128 4136,
    Word.new (.core .pause) .word 4144 4160] → w.action ≠ .core .handlerStore := by decide

/-! ## C10 -/

/-- C10. In every execution, of any program and any length, the data space stays where it is and
`here` stays inside it. -/
theorem C10_here {cfg : Cfg} {s t : VM} (h : Reach cfg s t) (hi : InSpace s) :
    t.ds.start = s.ds.start ∧ t.ds.cap = s.ds.cap ∧ s.ds.start ≤ t.ds.here ∧
      t.ds.here ≤ s.ds.start + s.ds.cap := by
  obtain ⟨h1, h2, h3⟩ := (h.changes hi).ds
  have := h3 hi.2
  simp only [DataSpace.here]
  omega

/-- C10. No execution writes a byte outside the data space. -/
theorem C10_outside {cfg : Cfg} {s t : VM} (h : Reach cfg s t) (hi : InSpace s) (x : Nat)
    (hx : x < s.ds.start ∨ s.ds.start + s.ds.cap ≤ x) : t.ds.bytes x = s.ds.bytes x := by
  have key : t.ds.start = s.ds.start ∧ t.ds.cap = s.ds.cap ∧ t.ds.bytes x = s.ds.bytes x := by
    refine (h.changes hi).keep (P := fun t => t.ds.start = s.ds.start ∧ t.ds.cap = s.ds.cap ∧
      t.ds.bytes x = s.ds.bytes x) ?_ ⟨rfl, rfl, rfl⟩
    intro k u v _ hc ⟨h1, h2, h3⟩
    have hd := hc.ds
    refine ⟨hd.1.trans h1, hd.2.1.trans h2, Eq.trans ?_ h3⟩
    cases k <;> simp only [Change] at hc
    case memWrite => obtain ⟨a, n, b, ha, hn, hb, rfl⟩ := hc; exact hb x (by omega)
    case memAppend => obtain ⟨n, b, hn, hn', hb, rfl⟩ := hc; exact hb x (by omega)
    case sourceOpen => obtain ⟨src, ⟨p, -, rfl⟩ | rfl⟩ := hc <;> rfl
    all_goals
      first
      | (obtain ⟨_, rfl⟩ := hc; rfl)
      | (obtain ⟨_, _, rfl⟩ := hc; rfl)
      | (obtain ⟨_, _, _, rfl⟩ := hc; rfl)
      | (obtain ⟨_, _, _, _, rfl⟩ := hc; rfl)
      | (obtain ⟨_, _, _, _, _, rfl⟩ := hc; rfl)
      | (subst hc; rfl)
  exact key.2.2

/-- Running for a while and then evaluating text is an execution. -/
example (cfg : Cfg) (s t u : VM) (h : loadStr cfg 5 100 "1 ,".toList s = .ok ((), t))
    (h' : step cfg 5 t = .ok (true, u)) : Reach cfg s u := .tail (.tail (.refl s) (.script h)) (.step h')

/-! ## C36 -/

/-- A change other than of who is awake, in control or activated leaves the other tasks alone. -/
theorem Spec.Change.current {k : Kind} {s t : VM} (h : Change k s t) (h1 : k ≠ .activate)
    (h2 : k ≠ .awake) (h3 : k ≠ .switch) : t.cur = s.cur ∧ ∀ j, j ≠ s.cur → t.tasks j = s.tasks j := by
  cases k <;> simp only [Change] at h
  case activate => exact absurd rfl h1
  case awake => exact absurd rfl h2
  case switch => exact absurd rfl h3
  case sourceOpen =>
    obtain ⟨src, ⟨p, -, rfl⟩ | rfl⟩ := h <;> exact ⟨rfl, fun j hj => if_neg hj⟩
  all_goals
    first
    | (obtain ⟨_, rfl⟩ := h; exact ⟨rfl, fun j hj => if_neg hj⟩)
    | (obtain ⟨_, _, rfl⟩ := h; exact ⟨rfl, fun j hj => if_neg hj⟩)
    | (obtain ⟨_, _, _, rfl⟩ := h; exact ⟨rfl, fun j hj => if_neg hj⟩)
    | (obtain ⟨_, _, _, _, rfl⟩ := h; exact ⟨rfl, fun j hj => if_neg hj⟩)
    | (obtain ⟨_, _, _, _, _, rfl⟩ := h; exact ⟨rfl, fun j hj => if_neg hj⟩)
    | (obtain ⟨_, rfl⟩ := h; exact ⟨rfl, fun j hj => rfl⟩)
    | (obtain ⟨_, _, rfl⟩ := h; exact ⟨rfl, fun j hj => rfl⟩)
    | (obtain ⟨_, _, _, rfl⟩ := h; exact ⟨rfl, fun j hj => rfl⟩)
    | (obtain ⟨_, _, _, _, rfl⟩ := h; exact ⟨rfl, fun j hj => rfl⟩)
    | (obtain ⟨_, _, _, _, _, _, rfl⟩ := h; exact ⟨rfl, fun j hj => rfl⟩)
    | (subst h; exact ⟨rfl, fun j hj => rfl⟩)

theorem Spec.Change.others {k : Kind} {s t : VM} (h : Change k s t) (j : Fin 5) (hj : j ≠ s.cur) :
    SamePrivate (s.tasks j) (t.tasks j) ∧
      (SameThread (s.tasks j) (t.tasks j) ∨ k = .activate ∧
        ∃ ip, t = { s.setTaskAt j (activated (s.tasks j) ip) with lastError := none }) ∧
      (k ≠ .switch → t.cur = s.cur) := by
  by_cases h1 : k = .activate
  · subst h1
    obtain ⟨i, ip, rfl⟩ := h
    by_cases hi : j = i
    · subst hi
      simp only [VM.setTaskAt, if_true]
      exact ⟨⟨rfl, rfl, rfl, rfl, rfl, rfl⟩, .inr ⟨trivial, ip, rfl⟩, fun _ => by trivial⟩
    · simp only [VM.setTaskAt, if_neg hi]
      exact ⟨⟨rfl, rfl, rfl, rfl, rfl, rfl⟩, .inl ⟨rfl, rfl, rfl⟩, fun _ => by trivial⟩
  by_cases h2 : k = .awake
  · subst h2
    obtain ⟨i, b, rfl⟩ := h
    by_cases hi : j = i
    · subst hi
      simp only [VM.setTaskAt, if_true]
      exact ⟨⟨rfl, rfl, rfl, rfl, rfl, rfl⟩, .inl ⟨rfl, rfl, rfl⟩, fun _ => by trivial⟩
    · simp only [VM.setTaskAt, if_neg hi]
      exact ⟨⟨rfl, rfl, rfl, rfl, rfl, rfl⟩, .inl ⟨rfl, rfl, rfl⟩, fun _ => by trivial⟩
  by_cases h3 : k = .switch
  · subst h3
    obtain ⟨i, -, rfl⟩ := h
    exact ⟨⟨rfl, rfl, rfl, rfl, rfl, rfl⟩, .inl ⟨rfl, rfl, rfl⟩, fun hn => absurd rfl hn⟩
  obtain ⟨hc, ht⟩ := h.current h1 h2 h3
  rw [ht j hj]
  exact ⟨⟨rfl, rfl, rfl, rfl, rfl, rfl⟩, .inl ⟨rfl, rfl, rfl⟩, fun _ => hc⟩

theorem Spec.SamePrivate.refl (t : Task) : SamePrivate t t := ⟨rfl, rfl, rfl, rfl, rfl, rfl⟩

theorem Spec.SamePrivate.trans {a b c : Task} (h : SamePrivate a b) (k : SamePrivate b c) :
    SamePrivate a c :=
  ⟨k.1.trans h.1, k.2.1.trans h.2.1, k.2.2.1.trans h.2.2.1, k.2.2.2.1.trans h.2.2.2.1,
    k.2.2.2.2.1.trans h.2.2.2.2.1, k.2.2.2.2.2.trans h.2.2.2.2.2⟩

theorem Spec.SameThread.refl (t : Task) : SameThread t t := ⟨rfl, rfl, rfl⟩

theorem Spec.SameThread.trans {a b c : Task} (h : SameThread a b) (k : SameThread b c) :
    SameThread a c := ⟨k.1.trans h.1, k.2.1.trans h.2.1, k.2.2.trans h.2.2⟩

/-- A chain without switches leaves control where it is and the private parts of other tasks alone. -/
theorem Spec.Changes.noSwitch {K : List Kind} (hk : .switch ∉ K) {s t : VM} (h : Changes K s t) :
    t.cur = s.cur ∧ ∀ j, j ≠ s.cur → SamePrivate (s.tasks j) (t.tasks j) := by
  induction h with
  | refl => exact ⟨rfl, fun _ _ => .refl _⟩
  | @tail u v k hc hk' h1 ih =>
    have hs : k ≠ .switch := fun e => hk (e ▸ hk')
    have hcur : v.cur = u.cur := by
      by_cases h0 : u.cur = 0
      · exact (h1.others 1 (by rw [h0]; decide)).2.2 hs
      · exact (h1.others 0 (fun e => h0 e.symm)).2.2 hs
    exact ⟨hcur.trans ih.1, fun j hj => (ih.2 j hj).trans (h1.others j (by rw [ih.1]; exact hj)).1⟩

theorem Spec.Changes.noActivate {K : List Kind} (hk : .switch ∉ K) (ha : .activate ∉ K) {s t : VM}
    (h : Changes K s t) (j : Fin 5) (hj : j ≠ s.cur) : SameThread (s.tasks j) (t.tasks j) := by
  have key : t.cur = s.cur ∧ SameThread (s.tasks j) (t.tasks j) := by
    induction h with
    | refl => exact ⟨rfl, .refl _⟩
    | @tail u v k hc hk' h1 ih =>
      have hs : k ≠ .switch := fun e => hk (e ▸ hk')
      have ho := h1.others j (by rw [ih.1]; exact hj)
      refine ⟨(ho.2.2 hs).trans ih.1, ih.2.trans ?_⟩
      rcases ho.2.1 with hn | ⟨rfl, -⟩
      · exact hn
      · exact absurd hk' ha
  exact key.2

/-- A task that is asleep and not in control is left alone by a chain that wakes nobody. -/
theorem Spec.Changes.asleep {K : List Kind} (hk : .awake ∉ K) (ha : .activate ∉ K) {s t : VM}
    (h : Changes K s t) (j : Fin 5) (hj : j ≠ s.cur) (hs : (s.tasks j).awake = false) :
    t.tasks j = s.tasks j ∧ j ≠ t.cur := by
  induction h with
  | refl => exact ⟨rfl, hj⟩
  | @tail u v k hc hk' h1 ih =>
    have n1 : k ≠ .awake := fun e => hk (e ▸ hk')
    have n2 : k ≠ .activate := fun e => ha (e ▸ hk')
    by_cases n3 : k = .switch
    · subst n3
      obtain ⟨i, hi, rfl⟩ := h1
      refine ⟨ih.1, ?_⟩
      rintro rfl
      rw [ih.1, hs] at hi
      cases hi
    · obtain ⟨e1, e2⟩ := h1.current n2 n1 n3
      exact ⟨(e2 j ih.2).trans ih.1, by rw [e1]; exact ih.2⟩

/-- C36. A word other than `pause` and the words that run other words leaves the stacks, files and
sources of the other tasks alone, if the handler does so in case of error. -/
theorem C36_word (c : Ctx) (p : Prim) (hp : p ≠ .core .pause) (he : executes p = false) (L : List Kind)
    {s s' : VM} {u : Unit} (hl : .handler ∉ L) (hl' : .switch ∉ L)
    (hq : raises p = true → ∀ x y, InSpace x → x.handler = s.handler → c.ex s.handler x = .ok ((), y) →
      Changes L x y)
    (hi : InSpace s) (h : action c p s = .ok (u, s')) :
    s'.cur = s.cur ∧ ∀ j, j ≠ s.cur → SamePrivate (s.tasks j) (s'.tasks j) := by
  refine (C53_footprint c p he L hl hq hi h).noSwitch fun e => ?_
  rcases List.mem_append.1 e with e | e
  · exact hp ((footprint_unique p).2.1 e)
  · exact hl' e

/-- C36. If it does not activate a task either, it leaves the other tasks alone altogether, except for
their being awake. -/
theorem C36_word_thread (c : Ctx) (p : Prim) (hp : p ≠ .core .pause) (hp' : p ≠ .core .activate)
    (he : executes p = false) (L : List Kind) {s s' : VM} {u : Unit} (hl : .handler ∉ L)
    (hl' : .switch ∉ L) (hl'' : .activate ∉ L)
    (hq : raises p = true → ∀ x y, InSpace x → x.handler = s.handler → c.ex s.handler x = .ok ((), y) →
      Changes L x y)
    (hi : InSpace s) (h : action c p s = .ok (u, s')) (j : Fin 5)
    (hj : j ≠ s.cur) : SameThread (s.tasks j) (s'.tasks j) := by
  refine (C53_footprint c p he L hl hq hi h).noActivate (fun e => ?_) (fun e => ?_) j hj
  · rcases List.mem_append.1 e with e | e
    · exact hp ((footprint_unique p).2.1 e)
    · exact hl' e
  · rcases List.mem_append.1 e with e | e
    · exact hp' ((footprint_unique p).2.2.1 e)
    · exact hl'' e

/-- C36. `pause` itself changes nothing but who is in control. -/
theorem C36_pause (c : Ctx) {s s' : VM} {u : Unit} (hi : InSpace s)
    (h : action c (.core .pause) s = .ok (u, s')) : ∃ k, s' = { s with cur := k } := by
  have hc := C53_footprint_quiet c _ rfl rfl hi h
  have key : ∀ {t}, Changes (footprint (.core .pause)) s t → ∃ k, t = { s with cur := k } := by
    intro t ht
    induction ht with
    | refl => exact ⟨s.cur, rfl⟩
    | tail _ hk hc ih =>
      obtain ⟨k, rfl⟩ := ih
      rw [List.mem_singleton.1 hk] at hc
      obtain ⟨i, -, rfl⟩ := hc
      exact ⟨i, rfl⟩
  exact key hc

/-- C36. On a machine without the word `pause`, no execution, whatever the program, leaves the task or
changes the stacks, files and sources of another one. -/
theorem C36_noPause {cfg : Cfg} {s t : VM} (h : Reach cfg s t) (hi : InSpace s)
    (hw : ∀ w, w ∈ s.wl.words → w.action ≠ .core .pause) :
    t.cur = s.cur ∧ ∀ j, j ≠ s.cur → SamePrivate (s.tasks j) (t.tasks j) := by
  have ha : Able (runKinds.filter fun k => !(k == .switch)) s := by
    refine able_filter (by decide) fun w h1 k h2 => ?_
    rw [beq_eq_false_iff_ne]
    rintro rfl
    exact hw w h1 ((footprint_unique _).2.1 h2)
  exact (C54_confined (by decide) h hi ha).1.noSwitch (by decide)

/-- C36. As long as there is no word to wake or activate a task, no execution touches a sleeping task or
gives it control. -/
theorem C36_asleep {cfg : Cfg} {s t : VM} (h : Reach cfg s t) (hi : InSpace s)
    (hw : ∀ w, w ∈ s.wl.words → w.action ≠ .core .suspend ∧ w.action ≠ .core .resume ∧
      w.action ≠ .core .activate) (j : Fin 5) (hj : j ≠ s.cur) (hs : (s.tasks j).awake = false) :
    t.tasks j = s.tasks j ∧ j ≠ t.cur := by
  have ha : Able (runKinds.filter fun k => !(k == .awake || k == .activate)) s := by
    refine able_filter (by decide) fun w h1 k h2 => ?_
    rw [Bool.or_eq_false_iff, beq_eq_false_iff_ne, beq_eq_false_iff_ne]
    obtain ⟨w1, w2, w3⟩ := hw w h1
    constructor <;> rintro rfl
    · exact ((footprint_unique _).2.2.2.1 h2).elim w1 w2
    · exact w3 ((footprint_unique _).2.2.1 h2)
  exact (C54_confined (by decide) h hi ha).1.asleep (by decide) (by decide) j hj hs

/-- The blank machine has sleeping tasks. -/
example : ((VM.blank 4096 4096).tasks 3).awake = false ∧ 3 ≠ (VM.blank 4096 4096).cur ∧
    InSpace (VM.blank 4096 4096) := ⟨rfl, by decide, by decide, by decide⟩

/-! ## C40 -/

/-- C40. In every execution, the current source of every task is the terminal or open. -/
theorem C40_open {cfg : Cfg} {s t : VM} (h : Reach cfg s t) (hi : InSpace s)
    (hs : ∀ j, CurrentOpen (s.tasks j)) (j : Fin 5) : CurrentOpen (t.tasks j) := by
  revert j
  refine (h.changes hi).keep (P := fun t => ∀ j, CurrentOpen (t.tasks j)) ?_ hs
  intro k u v _ hc hu j
  by_cases h1 : k = .activate
  · subst h1
    obtain ⟨i, ip, rfl⟩ := hc
    simp only [VM.setTaskAt]
    split
    · exact .inl rfl
    · exact hu j
  by_cases h2 : k = .awake
  · subst h2
    obtain ⟨i, b, rfl⟩ := hc
    simp only [VM.setTaskAt]
    split
    · exact hu i
    · exact hu j
  by_cases h3 : k = .switch
  · subst h3
    obtain ⟨i, -, rfl⟩ := hc
    exact hu j
  by_cases hj : j ≠ u.cur
  · rw [(hc.current h1 h2 h3).2 j hj]
    exact hu j
  have hj := Decidable.not_not.1 hj
  subst hj
  have hcur := (hc.current h1 h2 h3).1
  have hu' : CurrentOpen u.task := hu u.cur
  have same : v.task.st.sourceId = u.task.st.sourceId → v.task.sources = u.task.sources →
      v.task.lines.length = u.task.lines.length → CurrentOpen (v.tasks u.cur) := by
    intro e1 e2 e3
    have : CurrentOpen v.task := by
      simp only [CurrentOpen, e1, e2, e3]
      exact hu'
    rwa [VM.task, hcur] at this
  have lines : ∀ {t t' : Task} {b : Option (List Char)}, setInputBuffer t b = .ok t' →
      t'.st.sourceId = t.st.sourceId ∧ t'.sources = t.sources ∧ t'.lines.length = t.lines.length := by
    intro t t' b e
    simp only [setInputBuffer] at e
    split at e
    · split at e <;> cases e
      exact ⟨rfl, rfl, List.length_set⟩
    · cases e; exact ⟨rfl, rfl, rfl⟩
  cases k <;> simp only [Change] at hc
  case activate => exact absurd rfl h1
  case awake => exact absurd rfl h2
  case switch => exact absurd rfl h3
  case sourceId =>
    obtain ⟨id, hid, rfl⟩ := hc
    have : CurrentOpen ({ u.task with st := { u.task.st with sourceId := id } }) := by
      rcases hid with rfl | ⟨a, b, l, hl⟩
      · exact .inl rfl
      · exact .inr ⟨a, b, (List.getElem?_eq_some_iff.1 hl).1⟩
    simpa only [VM.setTask, if_true] using this
  case inputText =>
    obtain ⟨_, _, t', -, e, rfl⟩ := hc
    obtain ⟨e1, e2, e3⟩ := lines e
    exact same (by rw [VM.task_setTask]; exact e1) (by rw [VM.task_setTask]; exact e2)
      (by rw [VM.task_setTask]; exact e3)
  case inputSlot =>
    obtain ⟨_, t', -, e, rfl⟩ := hc
    obtain ⟨e1, e2, e3⟩ := lines e
    exact same (by rw [VM.task_setTask]; exact e1) (by rw [VM.task_setTask]; exact e2)
      (by rw [VM.task_setTask]; exact e3)
  case sourceOpen =>
    rcases hu' with hz | ⟨g1, ⟨src0, g2⟩, g3⟩
    · refine .inl ?_
      obtain ⟨src, ⟨p, -, rfl⟩ | rfl⟩ := hc <;> simpa only [VM.setTask, if_true] using hz
    · have hlt := (List.getElem?_eq_some_iff.1 g2).1
      obtain ⟨src, ⟨p, hp, rfl⟩ | rfl⟩ := hc
      · refine .inr ?_
        simp only [VM.setTask, if_true]
        refine ⟨g1, ⟨src0, ?_⟩, g3⟩
        rw [List.getElem?_set_ne]
        · exact g2
        · intro e
          rw [e, g2] at hp
          cases hp
      · refine .inr ?_
        simp only [VM.setTask, if_true]
        refine ⟨g1, ⟨src0, ?_⟩, ?_⟩
        · rw [List.getElem?_append_left hlt]
          exact g2
        · rw [List.length_append]
          omega
  case sourceClose =>
    obtain ⟨id, hne, hpos, rfl⟩ := hc
    rcases hu' with hz | ⟨g1, ⟨src0, g2⟩, g3⟩
    · exact .inl (by simpa only [VM.setTask, if_true] using hz)
    · refine .inr ?_
      simp only [VM.setTask, if_true]
      refine ⟨g1, ⟨src0, ?_⟩, g3⟩
      rw [List.getElem?_set_ne]
      · exact g2
      · intro e
        have p1 : 0 < id.toNat := by
          rcases Nat.eq_zero_or_pos id.toNat with h0 | h0
          · have : id = 0 := BitVec.eq_of_toNat_eq (by simpa using h0)
            exact absurd (this ▸ hpos) (by decide)
          · exact h0
        have p2 : 0 < u.task.st.sourceId.toNat := by
          rcases Nat.eq_zero_or_pos u.task.st.sourceId.toNat with h0 | h0
          · have : u.task.st.sourceId = 0 := BitVec.eq_of_toNat_eq (by simpa using h0)
            exact absurd (this ▸ g1) (by decide)
          · exact h0
        exact hne (BitVec.eq_of_toNat_eq (by omega))
  case raise =>
    obtain ⟨e, -, rfl⟩ := hc
    have ht : (raised u e).task = { u.task with
        s := u.task.s.reset, f := u.task.f.reset, c := u.task.c.reset,
        st := { u.task.st with abortedWp := u.task.st.wp } } := VM.task_setTask u _
    exact same (by rw [ht]) (by rw [ht]) (by rw [ht])
  case sourceRead =>
    obtain ⟨i, src, l, ⟨old, ho⟩, -, rfl⟩ := hc
    rcases hu' with hz | ⟨g1, ⟨src0, g2⟩, g3⟩
    · exact .inl (by simpa only [VM.setTask, if_true] using hz)
    · refine .inr ?_
      simp only [VM.setTask, if_true]
      refine ⟨g1, ?_, by rw [List.length_set]; exact g3⟩
      by_cases e : i = u.task.st.sourceId.toNat - 1
      · subst e
        exact ⟨src, List.getElem?_set_self (List.getElem?_eq_some_iff.1 g2).1⟩
      · exact ⟨src0, by rw [List.getElem?_set_ne e]; exact g2⟩
  all_goals
    first
    | (obtain ⟨_, rfl⟩ := hc; exact same (by rw [VM.task_setTask]) (by rw [VM.task_setTask]) (by rw [VM.task_setTask]))
    | (obtain ⟨_, _, rfl⟩ := hc; exact same (by rw [VM.task_setTask]) (by rw [VM.task_setTask]) (by rw [VM.task_setTask]))
    | (obtain ⟨_, _, _, rfl⟩ := hc; exact same (by rw [VM.task_setTask]) (by rw [VM.task_setTask]) (by rw [VM.task_setTask]))
    | (obtain ⟨_, _, _, _, rfl⟩ := hc; exact same (by rw [VM.task_setTask]) (by rw [VM.task_setTask]) (by rw [VM.task_setTask]))
    | (obtain ⟨_, rfl⟩ := hc; exact same rfl rfl rfl)
    | (obtain ⟨_, _, rfl⟩ := hc; exact same rfl rfl rfl)
    | (obtain ⟨_, _, _, rfl⟩ := hc; exact same rfl rfl rfl)
    | (obtain ⟨_, _, _, _, rfl⟩ := hc; exact same rfl rfl rfl)
    | (obtain ⟨_, _, _, _, _, _, rfl⟩ := hc; exact same rfl rfl rfl)
    | (subst hc; exact same rfl rfl rfl)

/-- C40. So reading the input buffer never faults. -/
theorem C40_read {t : Task} (h : CurrentOpen t) : ∃ b, inputBuffer t = .ok b := by
  rcases h with h | ⟨h1, _, h3⟩
  · exact ⟨t.inbuf, by simp [inputBuffer, h]⟩
  · refine ⟨t.lines[t.st.sourceId.toNat - 1], ?_⟩
    simp [inputBuffer, if_pos h1, h3]

/-- At the start all tasks read from the terminal. -/
example (j : Fin 5) : CurrentOpen ((VM.blank 4096 4096).tasks j) := .inl (by revert j; decide)

end Verif
