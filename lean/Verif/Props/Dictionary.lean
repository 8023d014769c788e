import Verif.Lemmas.Orderly
import Verif.Lemmas.Demo

/-!
# Properties of the dictionary (C20–C23, C48, C52)
-/

namespace Verif
open Spec

/-! ## C20 -/

/-- C20. When the dictionary is in order, looking a name up gives its newest visible word, or nothing if
there is none. -/
theorem C20_find {s : VM} (h : Dict s) (hi : InSpace s) (c : Ctx) (name : List Byte) :
    ∃ r, find c name s = .ok (r, s) ∧ Newest s name r := h.find hi c name

/-- C20. The newest visible word of a name is unique, so the lookup is determined by the words, their
names and their order alone. -/
theorem C20_unique {s : VM} {name : List Byte} {r r' : Option Nat} (h : Newest s name r)
    (h' : Newest s name r') : r = r' := Newest.unique h h'

/-- C20. The dictionary stays in order whatever words are run: any number of definitions, hidings and
markers. -/
theorem C20_history {cfg : Cfg} {k : Nat} {P : Prim → Prop} {s t : VM} (h : Orderly cfg k P s t)
    (hd : Dict s) (hi : InSpace s) : Dict t ∧ InSpace t := by
  obtain ⟨h1, h2, -, -⟩ := h.edits (b := .any) (fun _ _ => ⟨fun _ _ _ => trivial, fun e => by cases e⟩) hd hi
  exact ⟨h1, h2⟩

/-- C20. So after any history, looking a name up gives its newest visible word. -/
theorem C20_find_history {cfg : Cfg} {k : Nat} {P : Prim → Prop} {s t : VM} (h : Orderly cfg k P s t)
    (hd : Dict s) (hi : InSpace s) (c : Ctx) (name : List Byte) :
    ∃ r, find c name t = .ok (r, t) ∧ Newest t name r := by
  obtain ⟨h1, h2⟩ := C20_history h hd hi
  exact h1.find h2 c name

/-- C20. The machine with all its words added has its dictionary in order. -/
theorem C20_boot {c : Ctx} {start cap : Nat} {s : VM} {u : Unit} (hs : start + cap < 2 ^ 63) (hc : 16 ≤ cap)
    (h : addAll c (VM.blank start cap) = .ok (u, s)) : Dict s ∧ InSpace s :=
  addAll_dict (VM.blank_dict start cap) ⟨hs, hc⟩ h

/-- C20. Adding any table of words, other than markers, keeps the dictionary in order. -/
theorem C20_table {c : Ctx} {l : List Entry} {s t : VM} {u : Unit} (hd : Dict s) (hi : InSpace s)
    (hl : ∀ e, e ∈ l → e.action ≠ .core .unmark) (h : addTable c l s = .ok (u, t)) : Dict t ∧ InSpace t :=
  addTable_dict l hd hi hl h

/-- C20. A word that neither adds nor forgets a word, other than `:` and `;`, changes no lookup. -/
theorem C20_frame {cfg : Cfg} {depth i : Nat} {s t : VM} {w : Word} {x : Unit} (hd : Dict s) (hi : InSpace s)
    (hw : s.wl.words[i]? = some w) (he : executes w.action = false)
    (hq : raises w.action = true → QuietHandler (ctx cfg depth) s)
    (hint : .memWrite ∈ footprint w.action ∨ .memHere ∈ footprint w.action ∧ w.action ≠ .core .unmark →
      Intact s t)
    (h1 : w.action ≠ .core .colon) (h2 : w.action ≠ .core .semicolon)
    (h : execWord cfg (depth + 1) i s = .ok (x, t)) (hl : t.wl.words.length = s.wl.words.length)
    (name : List Byte) (r : Option Nat) : Newest t name r ↔ Newest s name r := by
  have hsame : hidingOf w.action = .same := by
    unfold hidingOf
    split
    · rename_i e; exact absurd e h1
    · rename_i e; exact absurd e h2
    · rfl
  cases (run_edit hd hi hw he hq hint h).1 with
  | keep start intact last buckets words code =>
    refine newest_keep intact (words.mono fun a b e => ?_) name r
    unfold Flags.ok flagsOf at e
    rw [hsame] at e
    exact e
  | add name w' start wl below nfa dfa named here shown mark =>
    rw [wl] at hl
    simp [Wordlist.push] at hl
  | forget k w' start bytes marker action words last buckets here =>
    rw [words, List.length_take] at hl
    have := (List.getElem?_eq_some_iff.1 marker).1
    omega

/-- C20. A word other than `:` that adds a word shows it: its name finds it, every other name finds what it
found before. -/
theorem C20_added {cfg : Cfg} {depth i : Nat} {s t : VM} {w : Word} {x : Unit} (hd : Dict s) (hi : InSpace s)
    (hw : s.wl.words[i]? = some w) (he : executes w.action = false)
    (hq : raises w.action = true → QuietHandler (ctx cfg depth) s)
    (hint : .memWrite ∈ footprint w.action ∨ .memHere ∈ footprint w.action ∧ w.action ≠ .core .unmark →
      Intact s t)
    (h1 : w.action ≠ .core .colon)
    (h : execWord cfg (depth + 1) i s = .ok (x, t)) (hl : t.wl.words.length = s.wl.words.length + 1) :
    ∃ v, t.wl.words[s.wl.words.length]? = some v ∧
      (∀ name, SameName (nameIn t.ds v) name → Newest t name (some s.wl.words.length)) ∧
      ∀ name, ¬ SameName (nameIn t.ds v) name → ∀ r, Newest t name r ↔ Newest s name r := by
  have hlen : 1 ≤ s.wl.words.length := by
    have := (List.getElem?_eq_some_iff.1 hw).1
    omega
  cases (run_edit hd hi hw he hq hint h).1 with
  | keep start intact last buckets words code =>
    rw [words.1] at hl
    omega
  | forget k w' start bytes marker action words last buckets here =>
    rw [words, List.length_take] at hl
    omega
  | add name w' start wl below nfa dfa named here shown mark =>
    have hws : t.wl.words = s.wl.words ++ [{ w' with link := s.wl.buckets (Wordlist.bucketOf (Wordlist.hash name)), hash := Wordlist.hash name }] := by
      rw [wl]; rfl
    have hh : w'.hidden = false := by
      unfold Flags.ok flagsOf hidingOf at shown
      split at shown
      · rename_i e; exact absurd e h1
      · simp only [Hiding.ok] at shown
        cases hb : w'.hidden with
        | false => rfl
        | true => exact absurd (shown hb) (by decide)
      · exact shown
    have hnew : t.wl.words[s.wl.words.length]? = some { w' with link := s.wl.buckets (Wordlist.bucketOf (Wordlist.hash name)), hash := Wordlist.hash name } := by
      rw [hws, List.getElem?_concat_length]
    have hold : ∀ j, j < s.wl.words.length → t.wl.words[j]? = s.wl.words[j]? := fun j hj => by
      rw [hws, List.getElem?_append_left hj]
    have hname : ∀ (j : Nat) u, s.wl.words[j]? = some u → nameIn t.ds u = nameIn s.ds u := fun j u hu =>
      (nameIn_same (d := s.ds) (d' := t.ds) (v := u) (w := u) rfl
        ((hd.intact (t := t) (by omega) below) j u hu).1).2
    refine ⟨_, hnew, fun n hn => ⟨⟨hlen, _, hnew, hh, hn⟩, fun j hj hv => ?_⟩, fun n hn r => newest_congr (fun j => ?_) r⟩
    · obtain ⟨-, u, hu, -⟩ := hv
      have := (List.getElem?_eq_some_iff.1 hu).1
      omega
    · constructor
      · rintro ⟨hj, u, hu, hh', hn'⟩
        have hlt := (List.getElem?_eq_some_iff.1 hu).1
        by_cases e : j = s.wl.words.length
        · rw [e, hnew] at hu
          cases hu
          exact absurd hn' hn
        · rw [hold j (by omega)] at hu
          exact ⟨hj, u, hu, hh', hname j u hu ▸ hn'⟩
      · rintro ⟨hj, u, hu, hh', hn'⟩
        have hlt := (List.getElem?_eq_some_iff.1 hu).1
        refine ⟨hj, u, by rw [hold j hlt]; exact hu, hh', (hname j u hu).symm ▸ hn'⟩

/-- Non-vacuity: a small machine whose dictionary is in order and whose handler is quiet. -/
theorem demo_ok (text : String) : Dict (demo text) ∧ InSpace (demo text) ∧
    ∀ depth, QuietHandler (ctx demoCfg depth) (demo text) := by
  have h0 : succeeds (addTable (ctx demoCfg 2) demoTable) (VM.blank 1024 8192) = true := by decide +kernel
  obtain ⟨d, i⟩ := C20_table (VM.blank_dict 1024 8192) ⟨by decide, by decide⟩
    (noUnmark_spec (by decide)) (succeeds_spec h0)
  obtain ⟨e1, e2, e3⟩ := withInput_same (after (addTable (ctx demoCfg 2) demoTable) (VM.blank 1024 8192)) text
  have hw : (after (addTable (ctx demoCfg 2) demoTable) (VM.blank 1024 8192)).wl.words[(after (addTable
      (ctx demoCfg 2) demoTable) (VM.blank 1024 8192)).handler]? = some { Word.new (.core .noop) .word 1040 1048 with
      hash := Wordlist.hash [] } := by decide +kernel
  unfold demo demoWith
  generalize after (addTable (ctx demoCfg 2) demoTable) (VM.blank 1024 8192) = s at *
  refine ⟨d.congr e1 e2, by unfold InSpace; rw [e2]; exact i, fun depth => ?_⟩
  rw [← e1, ← e3] at hw
  exact quiet_handler hw rfl rfl (by decide)

/-- Non-vacuity: names are found whatever their case, and a newer word of the same name comes first. -/
example : ((find (ctx demoCfg 2) (ascii "MARKER") (demo "")).toOption.map (·.1)) = some (some 5) ∧
    ((find (ctx demoCfg 2) (ascii "exit") (after (execWord demoCfg 3 4) (demo "exit"))).toOption.map (·.1)) =
      some (some 6) := by decide +kernel

/-- Non-vacuity: a run of `create`, in order. -/
example : Orderly demoCfg 5 (fun _ => True) (demo "exit") (after (execWord demoCfg 3 4) (demo "exit")) := by
  have hw : (demo "exit").wl.words[4]?.map (·.action) = some (.core .create) := by decide +kernel
  cases h : (demo "exit").wl.words[4]? with
  | none => rw [h] at hw; cases hw
  | some w =>
    rw [h, Option.map_some, Option.some.injEq] at hw
    refine .run (x := ()) (depth := 2) (.refl _ (by decide +kernel)) h trivial (by rw [hw]; rfl)
      (fun _ => (demo_ok _).2.2 2) (fun e => by rw [hw] at e; exact absurd e (by decide)) ?_ (by decide +kernel)
    exact succeeds_spec (by decide +kernel)

/-! ## C21 -/

/-- C21. Names that differ only in the case of ASCII letters have the same hash, and so the same bucket. -/
theorem C21_hash {a b : List Byte} (h : SameName a b) :
    Wordlist.hash a = Wordlist.hash b ∧
      Wordlist.bucketOf (Wordlist.hash a) = Wordlist.bucketOf (Wordlist.hash b) :=
  ⟨SameName.hash h, congrArg _ (SameName.hash h)⟩

example : SameName (ascii "Create") (ascii "cREATE") ∧ ¬ SameName (ascii "create") (ascii "creates") := by
  refine ⟨⟨rfl, fun i x y hx hy => ?_⟩, fun h => absurd h.1 (by decide)⟩
  have hi : i < 6 := (List.getElem?_eq_some_iff.1 hx).1
  have hi' : i = 0 ∨ i = 1 ∨ i = 2 ∨ i = 3 ∨ i = 4 ∨ i = 5 := by omega
  rcases hi' with rfl | rfl | rfl | rfl | rfl | rfl <;> cases hx <;> cases hy <;> unfold SameLetter <;> decide

/-! ## C22 -/

/-- C22. Running a marker restores the dictionary to what it was just before the marker was created,
whatever was done in between: `here`, the words up to their execution times, the hash buckets, and every
lookup. -/
theorem C22_marker {cfg : Cfg} {depth depth' i : Nat} {s0 s1 s2 t : VM} {m w : Word} {x y : Unit}
    (hd : Dict s0) (hi : InSpace s0) (hm : s0.wl.words[i]? = some m) (ha : m.action = .core .marker)
    (hq : QuietHandler (ctx cfg depth) s0) (h1 : execWord cfg (depth + 1) i s0 = .ok (x, s1))
    (hl : s1.wl.words.length = s0.wl.words.length + 1)
    (ho : Orderly cfg s0.wl.words.length (fun _ => True) s1 s2)
    (hw : s2.wl.words[s0.wl.words.length]? = some w) (hu : w.action = .core .unmark)
    (h2 : execWord cfg (depth' + 1) s0.wl.words.length s2 = .ok (y, t)) :
    t.ds.here = s0.ds.here ∧ t.wl.words.length = s0.wl.words.length ∧
    (∀ (j : Nat) v, s0.wl.words[j]? = some v →
      ∃ a b, t.wl.words[j]? = some { v with minTime := a, maxTime := b }) ∧
    t.wl.last = s0.wl.last ∧ t.wl.buckets = s0.wl.buckets ∧
    (∀ name r, Newest t name r ↔ Newest s0 name r) ∧
    (∀ c name, ∃ r, find c name t = .ok (r, t) ∧ find c name s0 = .ok (r, s0)) ∧ Dict t ∧ InSpace t := by
  have hlen : 1 ≤ s0.wl.words.length := by
    have := (List.getElem?_eq_some_iff.1 hm).1
    omega
  have he : executes m.action = false := by rw [ha]; rfl
  obtain ⟨e1, i1⟩ := run_edit hd hi hm he (fun _ => hq)
    (fun h => by rw [ha] at h; exact absurd h (by decide)) h1
  have d1 := e1.dict hd
  obtain ⟨d2, i2, e2, -⟩ := ho.edits (b := .any) (fun _ _ => ⟨fun _ _ _ => trivial, fun e => by cases e⟩) d1 i1
  have ht : Forgotten s0.wl.words.length w s2 t := by
    unfold execWord at h2
    obtain ⟨_, t', f1, f2⟩ := M.bind_inv h2
    clear h2
    cases f1
    rw [M.bind_apply, getWl_apply] at f2
    simp only [VM.wl_setTask, hw, hu] at f2
    have := unmark_inv (s := s2.setTask { s2.task with st := { s2.task.st with wp := s0.wl.words.length } })
      (w := w) (d2.congr rfl rfl) i2 (by rw [VM.task_setTask]; exact hw) hu f2
    rw [VM.task_setTask] at this
    exact ⟨this.start, this.bytes, this.words, this.last, this.buckets, this.here⟩
  obtain ⟨e3, i3⟩ := run_edit (w := w) d2 i2 hw (by rw [hu]; rfl) (fun h => by rw [hu] at h; exact absurd h (by decide))
    (fun h => by
      rw [hu] at h
      exact absurd h (by decide)) h2
  have d3 := e3.dict d2
  have hk : s0.wl.words.length < s2.wl.words.length := (List.getElem?_eq_some_iff.1 hw).1
  have hfirst : (∀ (j : Nat) v, s0.wl.words[j]? = some v → s1.wl.words[j]? = some v ∧ nameIn s1.ds v = nameIn s0.ds v) ∧
      ∃ v, s1.wl.words[s0.wl.words.length]? = some v ∧ v.nfa = s0.ds.here := by
    cases e1 with
    | keep start intact last buckets words code =>
      rw [words.1] at hl
      omega
    | forget k w' start bytes marker action words last buckets here =>
      rw [words, List.length_take] at hl
      omega
    | add name w' start wl below nfa dfa named here shown mark =>
      refine ⟨fun j v hv => ⟨?_, ?_⟩,
        { w' with link := s0.wl.buckets (Wordlist.bucketOf (Wordlist.hash name)), hash := Wordlist.hash name },
        by rw [wl]; exact List.getElem?_concat_length .., nfa⟩
      · rw [wl]
        exact (List.getElem?_append_left (List.getElem?_eq_some_iff.1 hv).1).trans hv
      · exact (nameIn_same (d := s0.ds) (d' := s1.ds) (v := v) (w := v) rfl
          ((hd.intact (t := s1) (by omega) below) j v hv).1).2
  obtain ⟨hold, v0, hv0, hn0⟩ := hfirst
  have hsame : ∀ (j : Nat) v, s0.wl.words[j]? = some v → ∃ a b, t.wl.words[j]? = some { v with minTime := a, maxTime := b } ∧
      nameIn t.ds { v with minTime := a, maxTime := b } = nameIn s0.ds v := fun j v hv => by
    have hj := (List.getElem?_eq_some_iff.1 hv).1
    obtain ⟨g1, g2⟩ := hold j v hv
    obtain ⟨-, -, v', hv', st⟩ := e2.still d1 (Nat.le_of_lt hj) g1
    obtain ⟨a, b, rfl⟩ := st.same hj
    refine ⟨a, b, ?_, ?_⟩
    · rw [ht.words, List.getElem?_take_of_lt hj]
      exact hv'
    · rw [← g2, ← st.name]
      exact (nameIn_same (d := s2.ds) (d' := t.ds) rfl fun x _ _ => by rw [ht.bytes]).2
  have hlt : t.wl.words.length = s0.wl.words.length := by
    rw [ht.words, List.length_take]
    omega
  have hnew : ∀ name r, Newest t name r ↔ Newest s0 name r := fun name r => by
    refine newest_congr (visible_congr (fun j v hv => ?_) (fun j v hv hj => ?_) name) r
    · obtain ⟨a, b, g1, g2⟩ := hsame j v hv
      exact ⟨_, g1, rfl, g2⟩
    · have := (List.getElem?_eq_some_iff.1 hv).1
      omega
  refine ⟨?_, hlt, fun j v hv => ?_, ?_, ?_, hnew, fun c name => ?_, d3, i3⟩
  · rw [ht.here]
    obtain ⟨-, -, v', hv', st⟩ := e2.still d1 (Nat.le_refl _) hv0
    rw [hw] at hv'
    cases hv'
    rw [st.nfa, hn0]
  · obtain ⟨a, b, g1, -⟩ := hsame j v hv
    exact ⟨a, b, g1⟩
  · rw [d3.last, hd.last, hlt]
  · funext b
    rw [d3.buckets, hd.buckets, hlt]
    refine newestIn_congr fun j _ => ?_
    cases hv : s0.wl.words[j]? with
    | none => rw [List.getElem?_eq_none_iff.2 (by have := List.getElem?_eq_none_iff.1 hv; omega)]
    | some v =>
      obtain ⟨a, b, g1, -⟩ := hsame j v hv
      rw [g1]
      rfl
  · obtain ⟨r, f1, f2⟩ := d3.find i3 c name
    obtain ⟨r', f3, f4⟩ := hd.find hi c name
    cases Newest.unique ((hnew name r).1 f2) f4
    exact ⟨r, f1, f3⟩

/-- Non-vacuity: a marker is created, `exit` is redefined, the marker is run. -/
example : let s0 := demo "m exit"
    let s1 := after (execWord demoCfg 3 5) s0
    let s2 := after (execWord demoCfg 3 4) s1
    succeeds (execWord demoCfg 3 5) s0 = true ∧ s1.wl.words.length = s0.wl.words.length + 1 ∧
    succeeds (execWord demoCfg 3 4) s1 = true ∧ s2.wl.words.length = 8 ∧
    s2.wl.words[6]?.map (·.action) = some (.core .unmark) ∧ succeeds (execWord demoCfg 3 6) s2 = true := by
  decide +kernel

/-! ## C23 -/

/-- With `noop` as the handler, an error stays recorded. -/
theorem abort_noop {cfg : Cfg} {depth i : Nat} {e : Exn} {s t : VM} {u : Unit}
    (hf : (Inv.handled i (.core .noop)).holds s) (h : abortWith (ctx cfg depth) e s = .ok (u, t)) :
    t.lastError = some e := by
  obtain ⟨h1, w, hw, ha⟩ := hf
  rw [abortWith_run, h1] at h
  cases depth with
  | zero => cases h
  | succ depth =>
    simp only [ctx, execWord] at h
    obtain ⟨_, z, e1, e2⟩ := M.bind_inv h
    cases e1
    rw [M.bind_apply, getWl_apply] at e2
    have : ((s.aborted e).setTask { (s.aborted e).task with st := { (s.aborted e).task.st with wp := i } }).wl = s.wl :=
      rfl
    rw [this] at e2
    simp only [hw, ha] at e2
    cases e2
    rfl

/-- What `:` does to the dictionary. -/
theorem colon_lookup {c : Ctx} {A : Inv plainKinds} (hh : Does A (runHandler c)) {s s' : VM} {u : Unit}
    (hf : Fit A s) (hd : Dict s) (he : s.lastError = none) (h : colon c s = .ok (u, s'))
    (hx : ∀ y m v, A.holds y → abortWith c .unexpectedEOF y = .ok (v, m) → m.lastError ≠ none) :
    (∀ name r, Newest s' name r ↔ Newest s name r) ∧
    ((s'.lastError ≠ none ∧ s'.wl.words.length = s.wl.words.length) ∨
      (s'.lastError = none ∧ s'.task.st.isCompiling = true ∧ s'.wl.words.length = s.wl.words.length + 1 ∧
        ∃ w tok s1, s'.wl.words[s.wl.words.length]? = some w ∧ w.hidden = true ∧ w.action = .core .nest ∧
          parseWord s = .ok ((), s1) ∧ s1.tkn = some tok ∧ tok ≠ [] ∧
          nameIn s'.ds w = utf8 (tok.map lowerChar))) := by
  unfold colon at h
  obtain ⟨_, m, e1, h1⟩ := M.bind_inv h
  clear h
  rw [M.bind_apply, getError_apply] at h1
  simp only at h1
  rcases define_full hh hf e1 with ⟨h3, y, h4, h5⟩ | ⟨s1, tok, t1, t2, t3, h3⟩
  · have hne := hx y m _ (h4.fit hf).2 h5
    cases hx : m.lastError with
    | none => exact absurd hx hne
    | some x =>
      rw [hx] at h1
      cases h1
      exact ⟨newest_free plain_free hd h3, .inl ⟨hne, (h3.free plain_free).2.2.1.1⟩⟩
  · have hm : m.lastError = none := h3.error.trans he
    rw [hm] at h1
    simp only at h1
    rw [M.bind_apply, getWl_apply] at h1
    simp only at h1
    obtain ⟨_, m2, e2, h2⟩ := M.bind_inv h1
    clear h1
    rw [modWord_apply] at e2
    split at e2 <;> cases e2
    rename_i w hw
    cases h2
    rw [h3.wl] at hw
    simp only [Wordlist.push, List.getElem?_concat_length, Option.some.injEq] at hw
    subst hw
    have hed : Edit .hide s m := h3.edit' (by decide) hf.1 rfl rfl (fun _ _ => rfl) (Nat.le_refl _)
    have hin := hd.intact (t := m) (by have := h3.here; omega) h3.below
    generalize hname : utf8 (tok.map lowerChar) = name at h3
    have hws : m.wl.words.set m.wl.last { Word.new (.core .nest) .word s.ds.here m.ds.here with
        hidden := true, link := s.wl.buckets (Wordlist.bucketOf (Wordlist.hash name)), hash := Wordlist.hash name } =
        s.wl.words ++ [{ Word.new (.core .nest) .word s.ds.here m.ds.here with
          hidden := true, link := s.wl.buckets (Wordlist.bucketOf (Wordlist.hash name)), hash := Wordlist.hash name }] := by
      simp only [h3.wl, Wordlist.push]
      rw [List.set_append_right _ _ (Nat.le_refl _), Nat.sub_self]
      rfl
    have hlen := (length_utf hf.1 h3).1
    have hnm : nameIn m.ds (Word.new (.core .nest) .word s.ds.here m.ds.here) = name := by
      have : (Word.new (.core .nest) .word s.ds.here m.ds.here).nfa = s.ds.here := rfl
      rw [nameIn, this, h3.count, toNat_toCell hlen, h3.text]
    refine ⟨fun n r => newest_congr (visible_congr (fun i w hw => ?_) (fun i v hv hl => ?_) n) r,
      .inr ⟨hm, ?_, ?_, { Word.new (.core .nest) .word s.ds.here m.ds.here with
        hidden := true, link := s.wl.buckets (Wordlist.bucketOf (Wordlist.hash name)),
        hash := Wordlist.hash name }, tok, s1, ?_, rfl, rfl, t1, t2, t3, hnm.trans hname.symm⟩⟩
    · refine ⟨w, ?_, rfl, (nameIn_same (d := s.ds) (d' := m.ds) (v := w) (w := w) rfl (hin i w hw).1).2⟩
      have := (List.getElem?_append_left (l₂ := [{ Word.new (.core .nest) .word s.ds.here m.ds.here with
          hidden := true, link := s.wl.buckets (Wordlist.bucketOf (Wordlist.hash name)), hash := Wordlist.hash name }])
          (List.getElem?_eq_some_iff.1 hw).1).trans hw
      rw [← hws] at this
      exact this
    · have hv' : (s.wl.words ++ [{ Word.new (.core .nest) .word s.ds.here m.ds.here with
          hidden := true, link := s.wl.buckets (Wordlist.bucketOf (Wordlist.hash name)), hash := Wordlist.hash name }])[i]? = some v := by
        rw [← hws]; exact hv
      rw [List.getElem?_append_right hl] at hv'
      cases e : i - s.wl.words.length with
      | zero => rw [e] at hv'; cases hv'; rfl
      | succ n => rw [e] at hv'; cases hv'
    · simp [VM.setTask, VM.task]
    · refine Eq.trans (congrArg List.length hws) ?_
      simp
    · refine Eq.trans (congrArg (·[s.wl.words.length]?) hws) ?_
      simp

/-- C23. `:` changes no lookup, whether it succeeds or not: the word it adds is hidden. This is with the
default handler, when no error is pending. -/
theorem C23_colon {cfg : Cfg} {depth i : Nat} {s t : VM} {w hw : Word} {x : Unit} (hd : Dict s) (hi : InSpace s)
    (hw1 : s.wl.words[i]? = some w) (ha : w.action = .core .colon)
    (hh1 : s.wl.words[s.handler]? = some hw) (hh2 : hw.action = .core .noop) (he : s.lastError = none)
    (h : execWord cfg (depth + 1) i s = .ok (x, t)) :
    (∀ name r, Newest t name r ↔ Newest s name r) ∧
    ((t.lastError ≠ none ∧ t.wl.words.length = s.wl.words.length) ∨
      (t.lastError = none ∧ t.task.st.isCompiling = true ∧ t.wl.words.length = s.wl.words.length + 1 ∧
        ∃ v, t.wl.words[s.wl.words.length]? = some v ∧ v.hidden = true ∧ v.action = .core .nest)) := by
  unfold execWord at h
  obtain ⟨_, s', e1, h1⟩ := M.bind_inv h
  clear h
  cases e1
  rw [M.bind_apply, getWl_apply] at h1
  simp only [VM.wl_setTask, hw1, ha] at h1
  obtain ⟨A, hA, hq⟩ : ∃ A : Inv plainKinds, (Fit A (s.setTask { s.task with st := { s.task.st with wp := i } }) ∧
      ∀ y m v, A.holds y → abortWith (ctx cfg depth) .unexpectedEOF y = .ok (v, m) → m.lastError ≠ none) ∧
      Does A (runHandler (ctx cfg depth)) := by
    refine ⟨(Inv.handled s.handler (.core .noop)).restrict fun k hk => List.mem_cons_of_mem _ hk,
      ⟨⟨hi, rfl, hw, hh1, hh2⟩, fun y m v hy e => ?_⟩, fun y a z hy e => ?_⟩
    · rw [abort_noop hy e]; simp
    · obtain ⟨hyi, hy0, w', hw', ha'⟩ := hy
      have hyw : y.wl.words[y.handler]? = some w' := by rw [hy0]; exact hw'
      obtain ⟨B, hB, hB'⟩ := quiet_handler (cfg := cfg) (depth := depth) hyw (by rw [ha']; rfl) (by rw [ha']; rfl)
        (by rw [ha']; decide)
      exact hB' y a z ⟨hyi, hB⟩ e
  have key := colon_lookup hq hA.1 (hd.congr rfl rfl) he h1 hA.2
  refine ⟨key.1, ?_⟩
  rcases key.2 with h2 | ⟨h2, h3, h4, v, _, _, h5, h6, h7, -⟩
  · exact .inl h2
  · exact .inr ⟨h2, h3, h4, v, h5, h6, h7⟩

/-- C23. What is hidden stays hidden, whatever is run other than `;`: an unfinished definition, also one
given up after an error. -/
theorem C23_stays_hidden {cfg : Cfg} {k i : Nat} {s t : VM} {w : Word}
    (h : Orderly cfg k (fun p => p ≠ .core .semicolon) s t) (hd : Dict s) (hi : InSpace s) (hik : i ≤ k)
    (hw : s.wl.words[i]? = some w) (hh : w.hidden = true) :
    ∃ v, t.wl.words[i]? = some v ∧ v.hidden = true ∧ nameIn t.ds v = nameIn s.ds w := by
  have hb : ∀ p, p ≠ .core .semicolon → (∀ x y, (flagsOf p).ok x y → Flags.ok ⟨.hide, true⟩ x y) ∧
      ((⟨.hide, true⟩ : Flags).writes = false → (flagsOf p).writes = false) := by
    refine fun p hp => ⟨fun x y e => ?_, fun e => by cases e⟩
    unfold Flags.ok flagsOf hidingOf at e
    split at e
    · exact e
    · exact absurd rfl hp
    · intro hx
      have : y = x := e
      rw [this]
      exact hx
  obtain ⟨-, -, h1, -⟩ := h.edits hb hd hi
  obtain ⟨-, -, u, hu, st⟩ := h1.still hd hik hw
  exact ⟨u, hu, st.hidden hh, st.name⟩

/-- C23. Only `:` hides anything. -/
theorem C23_stays_shown {cfg : Cfg} {k i : Nat} {s t : VM} {w : Word}
    (h : Orderly cfg k (fun p => p ≠ .core .colon) s t) (hd : Dict s) (hi : InSpace s) (hik : i ≤ k)
    (hw : s.wl.words[i]? = some w) (hh : w.hidden = false) :
    ∃ v, t.wl.words[i]? = some v ∧ v.hidden = false ∧ nameIn t.ds v = nameIn s.ds w := by
  have hb : ∀ p, p ≠ .core .colon → (∀ x y, (flagsOf p).ok x y → Flags.ok ⟨.reveal, true⟩ x y) ∧
      ((⟨.reveal, true⟩ : Flags).writes = false → (flagsOf p).writes = false) := by
    refine fun p hp => ⟨fun x y e => ?_, fun e => by cases e⟩
    unfold Flags.ok flagsOf hidingOf at e
    split at e
    · exact absurd rfl hp
    · exact e
    · intro hx
      have : y = x := e
      rw [← this]
      exact hx
  obtain ⟨-, -, h1, -⟩ := h.edits hb hd hi
  obtain ⟨-, -, u, hu, st⟩ := h1.still hd hik hw
  refine ⟨u, hu, ?_, st.name⟩
  cases hb : u.hidden with
  | false => rfl
  | true =>
    have : w.hidden = true := st.hidden hb
    rw [hh] at this
    cases this

/-- C23. After a `;` with nothing left open, the name of the last word finds it, and every other name finds
what it found before. -/
theorem C23_semicolon {cfg : Cfg} {depth i : Nat} {s t : VM} {w v : Word} {x : Unit} (hd : Dict s) (hi : InSpace s)
    (hw : s.wl.words[i]? = some w) (ha : w.action = .core .semicolon)
    (hq : QuietHandler (ctx cfg depth) s)
    (hv : s.wl.words[s.wl.last]? = some v) (hl : 1 ≤ s.wl.last)
    (hc : s.task.c.len = 0) (hf : s.forward = [])
    (h : execWord cfg (depth + 1) i s = .ok (x, t)) :
    (∀ name, SameName (nameIn s.ds v) name → Newest t name (some s.wl.last)) ∧
    (∀ name, ¬ SameName (nameIn s.ds v) name → ∀ r, Newest t name r ↔ Newest s name r) ∧
    t.wl.words.length = s.wl.words.length ∧ t.task.st.isCompiling = false := by
  unfold execWord at h
  obtain ⟨_, s', e1, h1⟩ := M.bind_inv h
  clear h
  cases e1
  rw [M.bind_apply, getWl_apply] at h1
  simp only [VM.wl_setTask, hw, ha] at h1
  obtain ⟨A, hA, hq⟩ := hq.wp i
  have hdoes : Does (A.restrict (L := plainKinds) fun k hk => List.mem_cons_of_mem _ hk) (runHandler (ctx cfg depth)) :=
    fun x a y hx e => hq x a y hx e
  have hd' : Dict (s.setTask { s.task with st := { s.task.st with wp := i } }) := hd.congr rfl rfl
  have hi' : InSpace (s.setTask { s.task with st := { s.task.st with wp := i } }) := hi
  have hsl : (s.setTask { s.task with st := { s.task.st with wp := i } }).wl = s.wl := rfl
  have hsd : (s.setTask { s.task with st := { s.task.st with wp := i } }).ds = s.ds := rfl
  have hsf : (s.setTask { s.task with st := { s.task.st with wp := i } }).forward = s.forward := rfl
  have hsc : (s.setTask { s.task with st := { s.task.st with wp := i } }).task.c = s.task.c := by rw [VM.task_setTask]
  generalize s.setTask { s.task with st := { s.task.st with wp := i } } = z at *
  have h1' : semicolon (ctx cfg depth) z = .ok (x, t) := h1
  unfold semicolon semicolonBody at h1'
  obtain ⟨_, s1, e1, h2⟩ := M.bind_inv h1'
  clear h1 h1'
  rw [M.bind_apply, getVM_apply] at e1
  simp only at e1
  rw [if_neg (by rw [hsc, hc]; simp), if_neg (by rw [hsf, hf]; simp)] at e1
  obtain ⟨wx, s2, e2, e3⟩ := M.bind_inv e1
  obtain ⟨-, rfl⟩ := wordAt_inv e2
  obtain ⟨_, s3, e4, e5⟩ := M.bind_inv e3
  have c1 : Changes plainKinds s2 s3 := Does.compSemRun hdoes plain_abort (by decide) _ _ _ _ _ ⟨hi', hA⟩ e4
  rw [M.bind_apply, getWl_apply] at e5
  simp only at e5
  clear e1 e2 e3 e4
  obtain ⟨a1, a2, a3, a4, a5, a6⟩ := c1.free plain_free
  rw [modWord_apply] at e5
  cases hv3 : s3.wl.words[s3.wl.last]? with
  | none => rw [hv3] at e5; cases e5
  | some v3 =>
    rw [hv3] at e5
    cases e5
    cases h2
    have hin : Intact s2 s3 := hd'.intact a4 a5
    have hnames : ∀ (j : Nat) u u', s.wl.words[j]? = some u → s3.wl.words[j]? = some u' →
        u'.hidden = u.hidden ∧ nameIn s3.ds u' = nameIn s.ds u := fun j u u' hu hu' => by
      rw [← hsl] at hu
      obtain ⟨⟨-, -, q3, -, -⟩, q7, -⟩ := a3.2 j u' u hu' hu
      rw [← hsd]
      exact ⟨q7, (nameIn_same q3 (hin j u hu).1).2⟩
    have hlen : s3.wl.words.length = s.wl.words.length := by rw [← hsl]; exact a3.1
    rw [a1, hsl] at hv3
    have hlt := (List.getElem?_eq_some_iff.1 hv3).1
    -- the resulting words
    have hws : ∀ j, (s3.wl.words.set s3.wl.last { v3 with hidden := false })[j]? =
        if j = s.wl.last then some { v3 with hidden := false } else s3.wl.words[j]? := fun j => by
      rw [a1, hsl, List.getElem?_set]
      by_cases e : s.wl.last = j
      · rw [if_pos e, if_pos e.symm, if_pos (e ▸ hlt)]
      · rw [if_neg e, if_neg (fun h => e h.symm)]
    refine ⟨fun name hn => ⟨⟨hl, { v3 with hidden := false }, ?_, rfl, ?_⟩, fun j hj hvis => ?_⟩,
      fun name hn r => newest_congr (fun j => ?_) r, ?_, ?_⟩
    · exact (hws _).trans (if_pos rfl)
    · show SameName (nameIn s3.ds v3) name
      rw [(hnames _ v v3 hv hv3).2]
      exact hn
    · obtain ⟨-, u, hu, -⟩ := hvis
      have h9 : (s3.wl.words.set s3.wl.last { v3 with hidden := false })[j]? = some u := hu
      have := (List.getElem?_eq_some_iff.1 h9).1
      rw [List.length_set, hlen] at this
      have := hd.last
      omega
    · constructor
      · rintro ⟨hj, u, hu, hh', hn'⟩
        have h9 : (s3.wl.words.set s3.wl.last { v3 with hidden := false })[j]? = some u := hu
        rw [hws] at h9
        split at h9
        · cases h9
          exfalso
          apply hn
          rw [← (hnames _ v v3 hv hv3).2]
          exact hn'
        · have hj' := (List.getElem?_eq_some_iff.1 h9).1
          rw [hlen] at hj'
          have hu0 := List.getElem?_eq_getElem hj'
          obtain ⟨p1, p2⟩ := hnames j _ u hu0 h9
          have hn'' : SameName (nameIn s3.ds u) name := hn'
          exact ⟨hj, _, hu0, p1 ▸ hh', p2 ▸ hn''⟩
      · rintro ⟨hj, u, hu, hh', hn'⟩
        have hne : j ≠ s.wl.last := by
          rintro rfl
          rw [hv] at hu
          cases hu
          exact hn hn'
        have hj' := (List.getElem?_eq_some_iff.1 hu).1
        rw [← hlen] at hj'
        have hu0 := List.getElem?_eq_getElem hj'
        obtain ⟨p1, p2⟩ := hnames j u _ hu hu0
        refine ⟨hj, _, ((hws j).trans (if_neg hne)).trans hu0, p1.trans hh', ?_⟩
        have : SameName (nameIn s3.ds s3.wl.words[j]) name := p2.symm ▸ hn'
        exact this
    · show (s3.wl.words.set _ _).length = _
      rw [List.length_set, hlen]
    · simp [VM.setTask, VM.task]

/-- C23. A `;` that fails changes no lookup. -/
theorem C23_semicolon_fails {cfg : Cfg} {depth i : Nat} {s t : VM} {w : Word} {x : Unit} (hd : Dict s)
    (hi : InSpace s) (hw : s.wl.words[i]? = some w) (ha : w.action = .core .semicolon)
    (hq : QuietHandler (ctx cfg depth) s) (hc : s.task.c.len ≠ 0 ∨ s.forward ≠ [])
    (h : execWord cfg (depth + 1) i s = .ok (x, t)) (name : List Byte) (r : Option Nat) :
    Newest t name r ↔ Newest s name r := by
  unfold execWord at h
  obtain ⟨_, s', e1, h1⟩ := M.bind_inv h
  clear h
  cases e1
  rw [M.bind_apply, getWl_apply] at h1
  simp only [VM.wl_setTask, hw, ha] at h1
  obtain ⟨A, hA, hq⟩ := hq.wp i
  have hdoes : Does (A.restrict (L := plainKinds) fun k hk => List.mem_cons_of_mem _ hk) (runHandler (ctx cfg depth)) :=
    fun x a y hx e => hq x a y hx e
  have hsf : (s.setTask { s.task with st := { s.task.st with wp := i } }).forward = s.forward := rfl
  have hsc : (s.setTask { s.task with st := { s.task.st with wp := i } }).task.c = s.task.c := by rw [VM.task_setTask]
  have c0 : Changes plainKinds s (s.setTask { s.task with st := { s.task.st with wp := i } }) :=
    .one (k := .wp) (by decide) ⟨_, rfl⟩
  have hi' : InSpace (s.setTask { s.task with st := { s.task.st with wp := i } }) := hi
  generalize s.setTask { s.task with st := { s.task.st with wp := i } } = z at *
  have h1' : semicolon (ctx cfg depth) z = .ok (x, t) := h1
  unfold semicolon semicolonBody at h1'
  obtain ⟨_, s1, e1, h2⟩ := M.bind_inv h1'
  clear h1 h1'
  rw [M.bind_apply, getVM_apply] at e1
  simp only at e1
  have c1 : Changes plainKinds z s1 := by
    have abort : ∀ e, Reserved e → abortWith (ctx cfg depth) e z = .ok ((), s1) → Changes plainKinds z s1 :=
      fun e he h => Does.abortWith (by decide) hdoes _ he _ _ _ ⟨hi', hA⟩ h
    split at e1
    · exact abort _ (by decide) e1
    · rename_i h0
      rw [if_pos] at e1
      · exact abort _ (by decide) e1
      · rw [hsf]
        rw [hsc] at h0
        exact hc.resolve_left h0
  have c2 : Changes plainKinds s1 t :=
    Does.modMode (A := Inv.any plainKinds) (by decide) _ _ _ _ ⟨c1.inSpace hi', trivial⟩ h2
  exact newest_free plain_free hd (c0.trans (c1.trans c2)) name r

/-- Non-vacuity: `: exit ;` with the body still to come, then completed. -/
example : let s0 := demo "exit"
    let s1 := after (execWord demoCfg 3 2) s0
    let s2 := after (execWord demoCfg 3 3) s1
    succeeds (execWord demoCfg 3 2) s0 = true ∧ s0.lastError = none ∧ s1.lastError = none ∧
    ((find (ctx demoCfg 2) (ascii "exit") s1).toOption.map (·.1)) = some (some 1) ∧
    succeeds (execWord demoCfg 3 3) s1 = true ∧ s1.task.c.len = 0 ∧ s1.forward = [] ∧ s1.wl.last = 6 ∧
    ((find (ctx demoCfg 2) (ascii "exit") s2).toOption.map (·.1)) = some (some 6) := by decide +kernel

theorem pending {s0 s : VM} {e : Exn} (hs0 : s = s0.setErr (some e)) (d : Dict s0) (i : InSpace s0)
    (hq : s.wl.words[s.handler]?.map (·.action) = some (.core .noop))
    (hs : succeeds (execWord demoCfg 3 2) s = true) (hw : s.wl.words[2]?.map (·.action) = some (.core .colon))
    {name : List Byte} {r r' : Option Nat}
    (h1 : (find (ctx demoCfg 2) name s).toOption.map (·.1) = some r)
    (h2 : (find (ctx demoCfg 2) name (after (execWord demoCfg 3 2) s)).toOption.map (·.1) = some r') :
    ∃ t, Dict s ∧ InSpace s ∧ s.lastError = some e ∧ execWord demoCfg 3 2 s = .ok ((), t) ∧
      Newest s name r ∧ Newest t name r' := by
  replace d : Dict s := by subst hs0; exact d.congr rfl rfl
  replace i : InSpace s := by subst hs0; exact i
  have q : QuietHandler (ctx demoCfg 2) s := by
    obtain ⟨w, hw, ha⟩ := Option.map_eq_some_iff.1 hq
    exact quiet_handler hw (by rw [ha]; rfl) (by rw [ha]; rfl) (by rw [ha]; decide)
  have he : s.lastError = some e := by subst hs0; rfl
  clear hs0
  cases h : s.wl.words[2]? with
  | none => rw [h] at hw; cases hw
  | some w =>
    rw [h, Option.map_some, Option.some.injEq] at hw
    have e := succeeds_spec hs
    obtain ⟨e1, e2⟩ := run_edit d i h (by rw [hw]; rfl) (fun _ => q)
      (fun e => by rw [hw] at e; exact absurd e (by decide)) e
    generalize after (execWord demoCfg 3 2) s = t at *
    refine ⟨t, d, i, he, e, ?_, ?_⟩
    · obtain ⟨r, f1, f2⟩ := d.find i (ctx demoCfg 2) name
      rw [f1] at h1
      cases h1
      exact f2
    · obtain ⟨r, f1, f2⟩ := (e1.dict d).find e2 (ctx demoCfg 2) name
      rw [f1] at h2
      cases h2
      exact f2

/-- C23 fails when an error is still pending: then `:` adds the word but does not hide it, and the name of
the unfinished definition finds it at once. -/
theorem C23_pending_refuted : ∃ s t : VM, Dict s ∧ InSpace s ∧ s.lastError = some .undefinedWord ∧
    execWord demoCfg 3 2 s = .ok ((), t) ∧ Newest s (ascii "exit") (some 1) ∧
    Newest t (ascii "exit") (some 6) := by
  obtain ⟨d, i, -⟩ := demo_ok "exit"
  exact ⟨_, pending (s := (demo "exit").setErr (some .undefinedWord)) rfl d i (by decide +kernel) (by decide +kernel)
    (by decide +kernel) (by decide +kernel) (by decide +kernel)⟩

/-! ## C48 -/

/-- Name addresses increase. -/
def Spec.Increasing (ws : List Word) : Prop :=
  ∀ (i j : Nat) v w, i < j → ws[i]? = some v → ws[j]? = some w → v.nfa < w.nfa

theorem bsearch_spec {ws : List Word} (h : Increasing ws) (addr : Nat) (size : Nat) : ∀ {lo : Nat},
    lo + size ≤ ws.length → (∀ (j : Nat) w, ws[j]? = some w → j < lo → w.nfa < addr) →
    (∀ (j : Nat) w, ws[j]? = some w → lo + size ≤ j → addr < w.nfa) →
    match Wordlist.bsearch ws addr lo size with
    | .ok i => ∃ w, ws[i]? = some w ∧ w.nfa = addr
    | .error i => i ≤ ws.length ∧ (∀ (j : Nat) w, ws[j]? = some w → j < i → w.nfa < addr) ∧
        ∀ (j : Nat) w, ws[j]? = some w → i ≤ j → addr < w.nfa := by
  induction size using Nat.strongRecOn with
  | ind size ih =>
    intro lo hlen hlo hhi
    unfold Wordlist.bsearch
    by_cases h0 : size = 0
    · rw [dif_pos h0]
      subst h0
      exact ⟨hlen, hlo, hhi⟩
    · rw [dif_neg h0]
      have hm : lo + size / 2 < ws.length := by omega
      have hw := List.getElem?_eq_getElem hm
      simp only [hw]
      by_cases hne : ws[lo + size / 2].nfa = addr
      · rw [if_pos hne]
        exact ⟨_, hw, hne⟩
      rw [if_neg hne]
      by_cases hlt : ws[lo + size / 2].nfa < addr
      · rw [if_pos hlt]
        refine ih (size - size / 2 - 1) (by omega) (by omega) (fun j w hj hjl => ?_) fun j w hj hjl =>
          hhi j w hj (by omega)
        by_cases e : j = lo + size / 2
        · subst e
          rw [hw] at hj
          cases hj
          exact hlt
        · have := h j (lo + size / 2) w _ (by omega) hj hw
          omega
      · rw [if_neg hlt]
        refine ih (size / 2) (by omega) (by omega) hlo fun j w hj hjl => ?_
        by_cases e : j = lo + size / 2
        · subst e
          rw [hw] at hj
          cases hj
          omega
        · have := h (lo + size / 2) j _ w (by omega) hw hj
          omega

/-- C48. The word found for an address is the last one whose entry starts at or below the address; nothing
is found just if there is none. -/
theorem C48_findXt {wl : Wordlist} (h : Increasing wl.words) (addr : Nat) :
    match wl.findXt addr with
    | some i => ∃ w, wl.words[i]? = some w ∧ w.nfa ≤ addr ∧
        ∀ (j : Nat) v, wl.words[j]? = some v → i < j → addr < v.nfa
    | none => ∀ (j : Nat) v, wl.words[j]? = some v → addr < v.nfa := by
  have key := bsearch_spec h addr wl.words.length (lo := 0) (by omega) (fun _ _ _ hj => by omega)
    fun j w hj hl => by
      have := (List.getElem?_eq_some_iff.1 hj).1
      omega
  unfold Wordlist.findXt
  cases hb : Wordlist.bsearch wl.words addr 0 wl.words.length with
  | ok i =>
    rw [hb] at key
    obtain ⟨w, hw, he⟩ := key
    refine ⟨w, hw, by omega, fun j v hv hij => ?_⟩
    have := h i j w v hij hw hv
    omega
  | error i =>
    rw [hb] at key
    obtain ⟨h1, h2, h3⟩ := key
    simp only
    by_cases h0 : i = 0
    · rw [if_pos h0]
      subst h0
      exact fun j v hv => h3 j v hv (Nat.zero_le _)
    · rw [if_neg h0]
      have hlt : i - 1 < wl.words.length := by omega
      have hw := List.getElem?_eq_getElem hlt
      exact ⟨_, hw, Nat.le_of_lt (h2 (i - 1) _ hw (by omega)), fun j v hv hij => h3 j v hv (by omega)⟩

/-- C48. Entries do increase in every dictionary in order, so after every history. -/
theorem C48_increasing {s : VM} (h : Dict s) : Increasing s.wl.words := fun i j v w hij hv hw => by
  have h1 := h.apart i j v w hij hv hw
  have h2 := h.high i v hv
  omega

/-- Non-vacuity: the entries of the small machine increase; an address inside one finds it. -/
example : Increasing (demo "").wl.words ∧ (demo "").wl.findXt 1070 = some 2 :=
  ⟨C48_increasing (demo_ok "").1, by decide +kernel⟩

/-! ## C52 -/

/-- C52. Whatever is defined, run, hidden or forgotten later, as long as word `k` stays and programs do not
themselves write to memory below `here`, the words before `k` and all their names and code stay the same
(up to measured times). -/
theorem C52_early_binding {cfg : Cfg} {k i : Nat} {s t : VM} {w v : Word}
    (h : Orderly cfg k (fun p => .memWrite ∉ footprint p ∧ (.memHere ∈ footprint p → p = .core .unmark)) s t)
    (hd : Dict s) (hi : InSpace s) (hik : i < k) (hw : s.wl.words[i]? = some w)
    (hv : s.wl.words[k]? = some v) :
    (∃ a b, t.wl.words[i]? = some { w with minTime := a, maxTime := b }) ∧
      ∀ x, x < v.nfa → t.ds.bytes x = s.ds.bytes x := by
  obtain ⟨-, -, h1, -⟩ := h.edits (b := ⟨.any, false⟩)
    (fun p hp => ⟨fun _ _ _ => trivial, fun _ => decide_eq_false fun e => by
      rcases e with e | ⟨e, e'⟩
      · exact hp.1 e
      · exact e' (hp.2 e)⟩) hd hi
  obtain ⟨-, -, u, hu, st⟩ := h1.still hd (Nat.le_of_lt hik) hw
  obtain ⟨a, b, rfl⟩ := st.same hik
  exact ⟨⟨a, b, hu⟩, h1.code rfl hd hv⟩

/-- C52. The same for words alone, whatever programs do, as long as they leave names and markers alone. -/
theorem C52_words {cfg : Cfg} {k i : Nat} {P : Prim → Prop} {s t : VM} {w : Word} (h : Orderly cfg k P s t)
    (hd : Dict s) (hi : InSpace s) (hik : i < k) (hw : s.wl.words[i]? = some w) :
    ∃ a b, t.wl.words[i]? = some { w with minTime := a, maxTime := b } := by
  obtain ⟨-, -, h1, -⟩ := h.edits (b := .any) (fun _ _ => ⟨fun _ _ _ => trivial, fun e => by cases e⟩) hd hi
  obtain ⟨-, -, u, hu, st⟩ := h1.still hd (Nat.le_of_lt hik) hw
  obtain ⟨a, b, rfl⟩ := st.same hik
  exact ⟨a, b, hu⟩

end Verif
