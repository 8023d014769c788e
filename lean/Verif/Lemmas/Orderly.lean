import Verif.Lemmas.Define

/-!
# The dictionary over orderly executions
-/

namespace Verif
open Spec

/-! ## One word -/

theorem Spec.Dict.congr {s t : VM} (h : Dict s) (hw : t.wl = s.wl) (hd : t.ds = s.ds) : Dict t := by
  refine ⟨?_, ?_, ?_, ?_, ?_, ?_, ?_, ?_, ?_⟩ <;> rw [hw] <;> try rw [hd]
  · exact h.last
  · exact h.low
  · exact h.high
  · exact h.hash
  · exact h.link
  · exact h.buckets
  · exact h.apart
  · exact h.top
  · exact h.marks

theorem Spec.Edit.congr {b : Flags} {s s' t : VM} (e : Edit b s' t) (hw : s'.wl = s.wl) (hd : s'.ds = s.ds) :
    Edit b s t := by
  cases e with
  | keep start intact last buckets words code =>
    unfold Intact at intact
    rw [hw, hd] at *
    exact .keep start intact last buckets words code
  | add name w start wl below nfa dfa named here shown mark =>
    rw [hw] at wl mark
    rw [hd] at start below nfa
    exact .add name w start wl below nfa dfa named here shown mark
  | forget k w start bytes marker action words last buckets here =>
    rw [hd] at start bytes
    rw [hw] at marker words
    simp only [hw] at buckets
    exact .forget k w start bytes marker action words last buckets here

theorem Spec.QuietHandler.wp {c : Ctx} {s : VM} (h : QuietHandler c s) (i : Nat) :
    QuietHandler c (s.setTask { s.task with st := { s.task.st with wp := i } }) := by
  obtain ⟨A, h1, h2⟩ := h
  exact ⟨A, A.keep .wp _ _ (by decide) ⟨i, rfl⟩ h1, h2⟩

/-- Running a word edits the dictionary. -/
theorem run_edit {cfg : Cfg} {depth i : Nat} {t u : VM} {w : Word} {x : Unit} (hd : Dict t) (hi : InSpace t)
    (hw : t.wl.words[i]? = some w) (he : executes w.action = false)
    (hq : raises w.action = true → QuietHandler (ctx cfg depth) t)
    (hint : .memWrite ∈ footprint w.action ∨ .memHere ∈ footprint w.action ∧ w.action ≠ .core .unmark →
      Intact t u)
    (h : execWord cfg (depth + 1) i t = .ok (x, u)) :
    Edit (flagsOf w.action) t u ∧ InSpace u := by
  have hin : InSpace u :=
    (Does.execWord cfg (A := Inv.any wordKinds) (Does.confined_any Does.footprint_wordKinds) (by decide)
      Does.wordKinds_abort (depth + 1) i t x u ⟨hi, trivial⟩ h).inSpace hi
  refine ⟨?_, hin⟩
  unfold execWord at h
  obtain ⟨_, t', e1, h1⟩ := M.bind_inv h
  clear h
  cases e1
  rw [M.bind_apply, getWl_apply] at h1
  simp only [VM.wl_setTask, hw] at h1
  refine (action_edit (c := ctx cfg depth)
    (s := t.setTask { t.task with st := { t.task.st with wp := i } }) (hd.congr rfl rfl) hi he
    (fun hr => (hq hr).wp i) ⟨w, ?_, rfl⟩ hint h1).congr rfl rfl
  rw [VM.task_setTask]
  exact hw

/-! ## Chains of edits -/

/-- Any number of edits, with more than `k` words throughout. -/
inductive Edits (k : Nat) (b : Flags) : VM → VM → Prop
  | refl (s : VM) : k < s.wl.words.length → Edits k b s s
  | tail {s t u : VM} : Edits k b s t → Edit b t u → k < u.wl.words.length → Edits k b s u

theorem Spec.Orderly.edits {cfg : Cfg} {k : Nat} {P : Prim → Prop} {b : Flags}
    (hb : ∀ p, P p → (∀ x y, (flagsOf p).ok x y → b.ok x y) ∧ (b.writes = false → (flagsOf p).writes = false)) {s t : VM} (h : Orderly cfg k P s t) (hd : Dict s)
    (hi : InSpace s) : Dict t ∧ InSpace t ∧ Edits k b s t ∧ k < t.wl.words.length := by
  induction h with
  | refl hk => exact ⟨hd, hi, .refl _ hk, hk⟩
  | run _ hw hp he hq hint e hk ih =>
    obtain ⟨i1, i2, i3, -⟩ := ih
    obtain ⟨e1, e2⟩ := run_edit i1 i2 hw he hq hint e
    exact ⟨e1.dict i1, e2, .tail i3 (e1.mono (hb _ hp).1 (hb _ hp).2) hk, hk⟩
  | free _ hc ih =>
    obtain ⟨i1, i2, i3, i4⟩ := ih
    have e1 : Edit b _ _ := .free (fun _ hk => hk) i1 hc
    have hk := by
      have := (hc.free fun _ hk => hk).2.2.1.1
      rw [← this] at i4
      exact i4
    exact ⟨e1.dict i1, hc.inSpace i2, .tail i3 e1 hk, hk⟩

/-- Word `i` of `s` is still there in `t`. -/
structure Still (b : Flags) (k i : Nat) (s t : VM) (w v : Word) : Prop where
  link : v.link = w.link
  hash : v.hash = w.hash
  nfa : v.nfa = w.nfa
  dfa : v.dfa = w.dfa
  action : v.action = w.action ∨ v.action = .core .doesAction
  name : nameIn t.ds v = nameIn s.ds w
  count : t.ds.cellAt v.nfa = s.ds.cellAt w.nfa
  hidden : b.ok w.hidden v.hidden
  same : i < k → ∃ a b, v = { w with minTime := a, maxTime := b }

theorem Spec.Edit.still {b : Flags} {k i : Nat} {s t : VM} {w : Word} (hd : Dict s) (e : Edit b s t)
    (hk : k < s.wl.words.length) (hk' : k < t.wl.words.length) (hi : i ≤ k) (hw : s.wl.words[i]? = some w) :
    ∃ v, t.wl.words[i]? = some v ∧ Still b k i s t w v := by
  cases e with
  | keep start intact last buckets words =>
    have hlt : i < t.wl.words.length := by omega
    have hv := List.getElem?_eq_getElem hlt
    obtain ⟨⟨h1, h2, h3, h4, h5⟩, h7, h6⟩ := words.2 i _ w hv hw
    have hn := nameIn_same h3 (intact i w hw).1
    refine ⟨_, hv, h1, h2, h3, h4, h5, hn.2, hn.1, h7, fun hik => h6 ?_⟩
    rw [hd.last]
    omega
  | add name w' start wl below nfa dfa named here shown mark =>
    have hn := nameIn_same (d := s.ds) (d' := t.ds) (v := w) (w := w) rfl
      ((hd.intact (t := t) (by omega) below) i w hw).1
    refine ⟨w, ?_, rfl, rfl, rfl, rfl, .inl rfl, hn.2, hn.1, b.refl _, fun _ => ⟨_, _, rfl⟩⟩
    rw [wl]
    exact (List.getElem?_append_left (by omega)).trans hw
  | forget k' w' start bytes marker action words last buckets here =>
    have hn := nameIn_same (d := s.ds) (d' := t.ds) (v := w) (w := w) rfl fun x _ _ => by rw [bytes]
    refine ⟨w, ?_, rfl, rfl, rfl, rfl, .inl rfl, hn.2, hn.1, b.refl _, fun _ => ⟨_, _, rfl⟩⟩
    rw [words, List.length_take] at hk'
    rw [words, List.getElem?_take_of_lt (by omega)]
    exact hw

theorem Edits.still {b : Flags} {k i : Nat} {s t : VM} {w : Word} (h : Edits k b s t) (hd : Dict s) (hi : i ≤ k)
    (hw : s.wl.words[i]? = some w) :
    Dict t ∧ k < t.wl.words.length ∧ ∃ v, t.wl.words[i]? = some v ∧ Still b k i s t w v := by
  induction h with
  | refl hk => exact ⟨hd, hk, w, hw, rfl, rfl, rfl, rfl, .inl rfl, rfl, rfl, b.refl _, fun _ => ⟨_, _, rfl⟩⟩
  | tail _ e hk ih =>
    obtain ⟨i1, i2, v, hv, s1⟩ := ih
    obtain ⟨v', hv', s2⟩ := e.still i1 i2 hk hi hv
    refine ⟨e.dict i1, hk, v', hv', s2.link.trans s1.link, s2.hash.trans s1.hash, s2.nfa.trans s1.nfa,
      s2.dfa.trans s1.dfa, ?_, s2.name.trans s1.name, s2.count.trans s1.count, b.trans s1.hidden s2.hidden, fun hik => ?_⟩
    · rcases s2.action with h | h
      · rw [h]; exact s1.action
      · exact .inr h
    · obtain ⟨a, c, rfl⟩ := s1.same hik
      obtain ⟨a', c', rfl⟩ := s2.same hik
      exact ⟨a', c', rfl⟩

theorem Edits.dict {b : Flags} {k : Nat} {s t : VM} (h : Edits k b s t) (hd : Dict s) :
    Dict t ∧ k < t.wl.words.length := by
  induction h with
  | refl hk => exact ⟨hd, hk⟩
  | tail _ e hk ih => exact ⟨e.dict ih.1, hk⟩

theorem Edits.code {b : Flags} {k : Nat} {s t : VM} {w : Word} (h : Edits k b s t) (hb : b.writes = false)
    (hd : Dict s) (hw : s.wl.words[k]? = some w) : ∀ x, x < w.nfa → t.ds.bytes x = s.ds.bytes x := by
  induction h with
  | refl hk => exact fun _ _ => rfl
  | @tail t u h e hk ih =>
    intro x hx
    rw [← ih x hx]
    obtain ⟨d1, -, v, hv, st⟩ := h.still hd (Nat.le_refl _) hw
    have h1 := d1.top k v hv
    have h2 := d1.high k v hv
    have h3 := st.nfa
    cases e with
    | keep start intact last buckets words code => exact (code hb).2 x (by omega)
    | add name w' start wl below nfa dfa named here shown mark => exact below x (by omega)
    | forget k' w' start bytes marker action words last buckets here => rw [bytes]

/-! ## Lookups -/

theorem newest_congr {s t : VM} {name : List Byte} (h : ∀ i, Visible t name i ↔ Visible s name i)
    (r : Option Nat) : Newest t name r ↔ Newest s name r := by
  cases r with
  | none => exact ⟨fun e j hj => e j ((h j).2 hj), fun e j hj => e j ((h j).1 hj)⟩
  | some i =>
    exact ⟨fun e => ⟨(h i).1 e.1, fun j hj hv => e.2 j hj ((h j).2 hv)⟩,
      fun e => ⟨(h i).2 e.1, fun j hj hv => e.2 j hj ((h j).1 hv)⟩⟩

theorem visible_congr {s t : VM} (h1 : ∀ (i : Nat) w, s.wl.words[i]? = some w → ∃ v, t.wl.words[i]? = some v ∧
      v.hidden = w.hidden ∧ nameIn t.ds v = nameIn s.ds w)
    (h2 : ∀ (i : Nat) v, t.wl.words[i]? = some v → s.wl.words.length ≤ i → v.hidden = true) (name : List Byte)
    (i : Nat) : Visible t name i ↔ Visible s name i := by
  constructor
  · rintro ⟨hi, v, hv, hh, hn⟩
    refine ⟨hi, ?_⟩
    by_cases hlt : i < s.wl.words.length
    · have hw := List.getElem?_eq_getElem hlt
      obtain ⟨v', hv', e1, e2⟩ := h1 i _ hw
      rw [hv] at hv'
      cases hv'
      exact ⟨_, hw, e1 ▸ hh, e2 ▸ hn⟩
    · rw [h2 i v hv (by omega)] at hh
      cases hh
  · rintro ⟨hi, w, hw, hh, hn⟩
    obtain ⟨v, hv, e1, e2⟩ := h1 i w hw
    exact ⟨hi, v, hv, e1.trans hh, e2 ▸ hn⟩

/-- No word comes or goes or is hidden or shown: lookups stay the same. -/
theorem newest_keep {s t : VM} (intact : Intact s t)
    (words : SameWords .same s.wl.last s.wl.words t.wl.words) (name : List Byte) (r : Option Nat) :
    Newest t name r ↔ Newest s name r := by
  refine newest_congr (visible_congr (fun i w hw => ?_) (fun i v hv hl => ?_) name) r
  · have hlt : i < t.wl.words.length := by
      rw [words.1]
      exact (List.getElem?_eq_some_iff.1 hw).1
    have hv := List.getElem?_eq_getElem hlt
    obtain ⟨⟨-, -, h3, -, -⟩, h7, -⟩ := words.2 i _ w hv hw
    exact ⟨_, hv, h7, (nameIn_same h3 (intact i w hw).1).2⟩
  · have := (List.getElem?_eq_some_iff.1 hv).1
    rw [words.1] at this
    omega

theorem newest_free {K : List Kind} (hK : ∀ k, k ∈ K → k ∈ freeKinds) {s t : VM} (h : Dict s)
    (hc : Changes K s t) (name : List Byte) (r : Option Nat) : Newest t name r ↔ Newest s name r := by
  obtain ⟨h1, h2, h3, h4, h5, h6⟩ := hc.free hK
  exact newest_keep (h.intact h4 h5) h3 name r

/-! ## Handlers -/

theorem Changes_nil {s t : VM} (h : Changes [] s t) : t = s := by
  cases h with
  | refl => rfl
  | tail _ hk _ => cases hk

theorem Spec.Change.words' {k : Kind} {u v : VM} (hc : Change k u v) (hk : k ∈ Kind.memWrite :: plainKinds) :
    v.wl.words = u.wl.words ∧ v.handler = u.handler := by
  cases k <;> simp only [Change] at hc
  case sourceOpen => obtain ⟨src, ⟨p, -, rfl⟩ | rfl⟩ := hc <;> exact ⟨rfl, rfl⟩
  case wordAdd => exact absurd hk (by decide)
  case wordLast => exact absurd hk (by decide)
  case wordForget => exact absurd hk (by decide)
  case wordTime => exact absurd hk (by decide)
  case handler => exact absurd hk (by decide)
  all_goals
    first
    | (obtain ⟨_, rfl⟩ := hc; exact ⟨rfl, rfl⟩)
    | (obtain ⟨_, _, rfl⟩ := hc; exact ⟨rfl, rfl⟩)
    | (obtain ⟨_, _, _, rfl⟩ := hc; exact ⟨rfl, rfl⟩)
    | (obtain ⟨_, _, _, _, rfl⟩ := hc; exact ⟨rfl, rfl⟩)
    | (obtain ⟨_, _, _, _, _, rfl⟩ := hc; exact ⟨rfl, rfl⟩)
    | (obtain ⟨_, _, _, _, _, _, rfl⟩ := hc; exact ⟨rfl, rfl⟩)
    | (subst hc; exact ⟨rfl, rfl⟩)

/-- The handler is a given word with a given action. -/
def Spec.Inv.handled (i : Nat) (p : Prim) : Inv (.memWrite :: plainKinds) where
  holds s := s.handler = i ∧ ∃ w, s.wl.words[i]? = some w ∧ w.action = p
  keep _ _ _ hk hc hs := by
    obtain ⟨h1, h2⟩ := hc.words' hk
    rw [h1, h2]
    exact hs

/-- Handlers that raise no errors, run no words and leave words and memory alone are quiet: the default
handler `noop`, and every colon definition. -/
theorem quiet_handler {cfg : Cfg} {depth : Nat} {s : VM} {w : Word} (hw : s.wl.words[s.handler]? = some w)
    (hr : raises w.action = false) (he : executes w.action = false)
    (hk : ∀ k, k ∈ footprint w.action → k ∈ plainKinds) : QuietHandler (ctx cfg depth) s := by
  refine ⟨Inv.handled s.handler w.action, ⟨rfl, w, hw, rfl⟩, fun x a y hx e => ?_⟩
  obtain ⟨hi, h0, w', hw', ha⟩ := hx
  rw [runHandler, h0] at e
  cases depth with
  | zero => cases e
  | succ depth =>
    simp only [ctx, execWord] at e
    obtain ⟨_, z, e1, e2⟩ := M.bind_inv e
    cases e1
    rw [M.bind_apply, getWl_apply] at e2
    simp only [VM.wl_setTask, hw', ha] at e2
    have c1 : Changes plainKinds x (x.setTask { x.task with st := { x.task.st with wp := s.handler } }) :=
      .one (k := .wp) (by decide) ⟨_, rfl⟩
    refine c1.trans ?_
    exact Does.action (A := Inv.any plainKinds) (c := ⟨cfg, execWord cfg depth⟩) w.action
      (fun e => by rw [hr] at e; cases e) (fun e => by rw [he] at e; cases e) hk _ a _ ⟨hi, trivial⟩ e2

/-! ## The machine as built -/

theorem add_edit {c : Ctx} {name : List Byte} {p : Prim} {s t : VM} {u : Unit} (hi : InSpace s)
    (hp : p ≠ .core .unmark) (h : addPrimitive c name p s = .ok (u, t)) : Edit .any s t ∧ InSpace t := by
  have ha : Added p name s t := add_inv hi h
  refine ⟨ha.edit' hp hi rfl rfl (fun _ _ => rfl) (Nat.le_refl _), ?_, ha.len⟩
  rw [ha.start, ha.cap]
  exact hi.1

theorem modWord_inSpace {i : Nat} {f : Word → Word} {s t : VM} {u : Unit} (hi : InSpace s)
    (h : modWord i f s = .ok (u, t)) : InSpace t := by
  rw [modWord_apply] at h
  split at h <;> cases h
  exact hi

theorem addEntry_dict {c : Ctx} {e : Entry} {s t : VM} {u : Unit} (hd : Dict s) (hi : InSpace s)
    (hp : e.action ≠ .core .unmark) (h : addEntry c e s = .ok (u, t)) : Dict t ∧ InSpace t := by
  unfold addEntry at h
  obtain ⟨_, s1, e1, h1⟩ := M.bind_inv h
  obtain ⟨d1, i1⟩ := add_edit hi hp e1
  replace d1 := d1.dict hd
  obtain ⟨_, s2, e2, h2⟩ := M.bind_inv h1
  have key : Dict s2 ∧ InSpace s2 := by
    split at e2
    · refine ⟨(immediate_edit (c' := .any) d1 e2).dict d1, ?_⟩
      unfold immediate at e2
      rw [M.bind_apply, getWl_apply] at e2
      exact modWord_inSpace i1 e2
    · cases e2; exact ⟨d1, i1⟩
  obtain ⟨d2, i2⟩ := key
  split at h2
  · refine ⟨(compileOnly_edit (c' := .any) d2 h2).dict d2, ?_⟩
    unfold compileOnly at h2
    rw [M.bind_apply, getWl_apply] at h2
    exact modWord_inSpace i2 h2
  · cases h2; exact ⟨d2, i2⟩

theorem addTable_dict {c : Ctx} (l : List Entry) : ∀ {s t : VM} {u : Unit}, Dict s → InSpace s →
    (∀ e, e ∈ l → e.action ≠ .core .unmark) → addTable c l s = .ok (u, t) → Dict t ∧ InSpace t := by
  induction l with
  | nil => intro s t u hd hi _ h; cases h; exact ⟨hd, hi⟩
  | cons e l ih =>
    intro s t u hd hi hp h
    unfold addTable at h
    obtain ⟨_, s1, e1, h1⟩ := M.bind_inv h
    obtain ⟨d1, i1⟩ := addEntry_dict hd hi (hp e (List.mem_cons_self ..)) e1
    exact ih d1 i1 (fun e' he => hp e' (List.mem_cons_of_mem _ he)) h1

theorem findE_inv {c : Ctx} {name : String} {s t : VM} {i : Nat} (hi : InSpace s)
    (h : findE c name s = .ok (i, t)) : t = s := by
  unfold findE at h
  obtain ⟨r, s1, e1, h1⟩ := M.bind_inv h
  have := Changes_nil (Does.find (K := []) (A := Inv.any []) c (ascii name) s r s1 ⟨hi, trivial⟩ e1)
  subst this
  cases r with
  | none => cases h1
  | some j => cases h1; rfl

theorem findE_bind {α : Type} {c : Ctx} {name : String} {f : Nat → M α} {s t : VM} {x : α} (hi : InSpace s)
    (h : (findE c name >>= f) s = .ok (x, t)) : ∃ i, f i s = .ok (x, t) := by
  obtain ⟨i, s1, e1, h1⟩ := M.bind_inv h
  rw [findE_inv hi e1] at h1
  exact ⟨i, h1⟩

theorem VM.blank_dict (start cap : Nat) : Dict (VM.blank start cap) := by
  have hn : ∀ (i : Nat) (w : Word), (VM.blank start cap).wl.words[i]? ≠ some w := fun i w h => by
    have : (VM.blank start cap).wl.words = [] := rfl
    rw [this, List.getElem?_nil] at h
    cases h
  exact ⟨rfl, fun i w h => absurd h (hn i w), fun i w h => absurd h (hn i w), fun i w h => absurd h (hn i w),
    fun i w h => absurd h (hn i w), fun _ => rfl, fun i _ w _ _ h => absurd h (hn i w),
    fun i w h => absurd h (hn i w), fun i w h => absurd h (hn i w)⟩

theorem coreRefs_inv {c : Ctx} {s t : VM} {u : Unit} (hi : InSpace s) (h : coreRefs c s = .ok (u, t)) :
    t.wl = s.wl ∧ t.ds = s.ds := by
  unfold coreRefs at h
  iterate 15
    replace h := findE_bind hi h
    obtain ⟨_, h⟩ := h
  cases h
  exact ⟨rfl, rfl⟩

theorem patch_dict {c : Ctx} {s t : VM} {u : Unit} (hd : Dict s) (hi : InSpace s)
    (h : patchCompSem c s = .ok (u, t)) : Dict t ∧ InSpace t := by
  unfold patchCompSem at h
  obtain ⟨i, h⟩ := findE_bind hi h
  refine ⟨?_, modWord_inSpace hi h⟩
  rw [modWord_apply] at h
  cases hw : s.wl.words[i]? with
  | none => rw [hw] at h; cases h
  | some w =>
    rw [hw] at h
    cases h
    refine hd.frame (l := i) (hd.intact (t := s) (Nat.le_refl _) fun _ _ => rfl) rfl rfl rfl ?_
    exact sameWords_set hw trivial ⟨rfl, rfl, rfl, rfl, .inl rfl⟩

def noUnmark (l : List Entry) : Bool := l.all fun e => e.action != .core .unmark

theorem noUnmark_spec {l : List Entry} (h : noUnmark l = true) (e : Entry) (he : e ∈ l) :
    e.action ≠ .core .unmark := by
  have := List.all_eq_true.1 h e he
  simpa using this

/-- The dictionary of the machine with all words added is in order. -/
theorem addAll_dict {c : Ctx} {s t : VM} {u : Unit} (hd : Dict s) (hi : InSpace s)
    (h : addAll c s = .ok (u, t)) : Dict t ∧ InSpace t := by
  unfold addAll addCore addOutput at h
  obtain ⟨_, s1, e1, h1⟩ := M.bind_inv h
  clear h
  obtain ⟨_, s2, e2, f1⟩ := M.bind_inv e1
  obtain ⟨d2, i2⟩ := addTable_dict _ hd hi (noUnmark_spec (by decide +kernel)) e2
  obtain ⟨_, s3, e3, f2⟩ := M.bind_inv f1
  have q3 := coreRefs_inv i2 e3
  have d3 := d2.congr q3.1 q3.2
  have i3 : InSpace s3 := by unfold InSpace; rw [q3.2]; exact i2
  obtain ⟨_, s4, e4, f3⟩ := M.bind_inv f2
  obtain ⟨d4, i4⟩ := patch_dict d3 i3 e4
  obtain ⟨_, s5, e5, f4⟩ := M.bind_inv f3
  obtain ⟨d5, i5⟩ := addTable_dict _ d4 i4 (noUnmark_spec (by decide +kernel)) e5
  have d6 : Dict s1 ∧ InSpace s1 := by
    cases f4
    exact ⟨d5.congr rfl rfl, i5⟩
  clear e1 f1 f2 f3 f4
  obtain ⟨d1, i1⟩ := d6
  obtain ⟨_, s6, e6, h2⟩ := M.bind_inv h1
  obtain ⟨_, s7, e7, g1⟩ := M.bind_inv e6
  obtain ⟨d7, i7⟩ := addTable_dict _ d1 i1 (noUnmark_spec (by decide +kernel)) e7
  obtain ⟨_, g2⟩ := findE_bind i7 g1
  obtain ⟨_, g3⟩ := findE_bind i7 g2
  have d8 : Dict s6 ∧ InSpace s6 := by
    cases g3
    exact ⟨d7.congr rfl rfl, i7⟩
  clear h1 e6 g1 g2 g3
  obtain ⟨d8, i8⟩ := d8
  obtain ⟨_, s9, e9, h3⟩ := M.bind_inv h2
  obtain ⟨d9, i9⟩ := addTable_dict _ d8 i8 (noUnmark_spec (by decide +kernel)) e9
  obtain ⟨_, s10, e10, h4⟩ := M.bind_inv h3
  obtain ⟨d10, i10⟩ := addTable_dict _ d9 i9 (noUnmark_spec (by decide +kernel)) e10
  obtain ⟨_, s11, e11, h5⟩ := M.bind_inv h4
  obtain ⟨d11, i11⟩ := addTable_dict _ d10 i10 (noUnmark_spec (by decide +kernel)) e11
  obtain ⟨_, s12, e12, h6⟩ := M.bind_inv h5
  obtain ⟨d12, i12⟩ := addTable_dict _ d11 i11 (noUnmark_spec (by decide +kernel)) e12
  obtain ⟨_, s13, e13, h7⟩ := M.bind_inv h6
  obtain ⟨d13, i13⟩ := addTable_dict _ d12 i12 (noUnmark_spec (by decide +kernel)) e13
  obtain ⟨_, s14, e14, h8⟩ := M.bind_inv h7
  obtain ⟨d14, i14⟩ := addTable_dict _ d13 i13 (noUnmark_spec (by decide +kernel)) e14
  exact addTable_dict _ d14 i14 (noUnmark_spec (by decide +kernel)) h8

end Verif
