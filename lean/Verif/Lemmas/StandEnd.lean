import Verif.Lemmas.StandTables
import Verif.Lemmas.Marker

/-!
# The end of the text that is loaded, and markers
-/

namespace Verif
open Spec Stack

section
variable {cfg : Cfg} {depth : Nat} {G : Ground} {l l' l1 : Outline} {s t : VM}

/-- A word that is not a colon definition is interpreted. -/
theorem plain_turn (h : Stand G l s) {tok : List Nat} (ht : takeTok l = some (tok, l1)) {i : Nat}
    (hi : lookup (keyOf tok 0) l.rows = some i) {r : Row} (hr : rowAt i l.rows = some r) (hco : r.co = false) {P : VM → Prop}
    (hact : ∀ s2, Stand G l1 s2 → s2.task.st.ip = s.task.st.ip → s2.task.r = s.task.r → s2.wl = s.wl → s2.ds = s.ds → s2.task.st.wp = i →
      ∃ t, action ⟨cfg, execWord cfg (depth + 1)⟩ r.action s2 = .ok ((), t) ∧ P t)
    (hP : ∀ t, P t → t.lastError = none ∧ Idle t ∧ Calm t.task.s ∧ Calm t.task.r ∧ Calm t.task.c ∧ Calm t.task.f) :
    ∃ s', Leads cfg (depth + 2) s s' ∧ P s' := by
  obtain ⟨pre, bs, n1, n2, n3, n4, n5, n6⟩ := h.next ht
  have hS := h.took n3 n6
  rw [← n5] at hS
  obtain ⟨w, w1, w2, -⟩ := h.row hr
  have hn := h.name n2
  rw [hi] at hn
  have hT : (took s pre bs (spelt tok)).task = atPosition s.task (byteLen (pre ++ bs ++ spelt tok)) := took_task s pre bs (spelt tok)
  have hev : evalToken (ctx cfg (depth + 2)) (took s pre bs (spelt tok)) =
      action ⟨cfg, execWord cfg (depth + 1)⟩ r.action ((took s pre bs (spelt tok)).at s.task.st.ip i) := by
    have hc : (took s pre bs (spelt tok)).task.st.isCompiling = false := by rw [hT]; exact h.interpreting
    simp only [evalToken, M.bind_apply, getSt_apply, hc, Bool.false_eq_true, if_false]
    rw [interpretToken, M.bind_ok takeToken_took, M.bind_ok (find_took h.dict h.inSpace pre bs (spelt tok) hn none)]
    simp only [putToken, M.bind_apply, modVM_apply]
    rw [wordAt_ok (w := w) (by exact w1)]
    have hco' : w.isCompileOnly = false := by rw [w2.co]; exact hco
    simp only [hco', Bool.false_eq_true, if_false, ctx]
    rw [show ({ took s pre bs (spelt tok) with tkn := some (spelt tok) } : VM) = took s pre bs (spelt tok) from rfl]
    rw [exec_word (w := w) (by exact w1), w2.action, hT]
    rfl
  generalize hs1 : took s pre bs (spelt tok) = s1 at *
  have hs1e : s1.tkn = some (spelt tok) := by rw [← hs1]; rfl
  have h1 : parseWord s = .ok ((), s1) := by rw [← hs1]; exact n1.parse
  have h0 : (s1.at s.task.st.ip i).task = { s1.task with st := { s1.task.st with ip := s.task.st.ip, wp := i } } := by rw [VM.at, VM.task_setTask]
  have hS2 : Stand G l1 (s1.at s.task.st.ip i) := hS.go s.task.st.ip i hS.ret
  obtain ⟨t, t1, t2⟩ := hact _ hS2 (by rw [h0]) (by rw [h0, hT]; rfl) (by rw [← hs1]; rfl) (by rw [← hs1]; rfl) (by rw [h0])
  obtain ⟨p1, p2, p3, p4, p5, p6⟩ := hP t t2
  exact ⟨t, turn_run (n := 0) h1 hs1e n4 (hev.trans t1) p1 (fun _ => rfl) p1 p2 p3 p4 p5 p6, t2⟩

/-- The outline with a marker. -/
def marked (mark rest : List Nat) (l : Outline) : Outline :=
  { l with
    rows := ⟨keyOf mark 0, l.count, .core .unmark, .word, false, false, roundUp8 (l.here + 8 + mark.length)⟩ :: l.rows
    count := l.count + 1
    here := roundUp8 (l.here + 8 + mark.length) + 520
    top := roundUp8 (l.here + 8 + mark.length) + 520
    text := rest }

/-- The next thing in the text is `marker` with the name `mark`, and there is room. -/
def marksNext (mark : List Nat) (l : Outline) : Bool :=
  let p := readTok l.text
  let q := readTok p.2
  decide (q.1 = mark) && !mark.isEmpty &&
  (match lookup (keyOf p.1 0) l.rows with
    | some i =>
      match rowAt i l.rows with
      | some r => !r.co && decide (r.action = .core .marker)
      | none => false
    | none => false) && !p.1.isEmpty && Nat.ble (roundUp8 (l.here + 8 + mark.length) + 520) outlineRoom &&
  (lookup (keyOf mark 0) l.rows).isNone

def markStep (mark : List Nat) (l : Outline) : Option Outline :=
  if marksNext mark l then some (marked mark (readTok (readTok l.text).2).2 l) else none

/-- The last word is a marker that was made when the machine was as outline `l` says. -/
structure Marked (G : Ground) (l : Outline) (s : VM) : Prop where
  before : ∃ s0, Stand G l s0 ∧ s.wl.words.take l.count = s0.wl.words ∧ ∀ x, x < G.start + l.here → s.ds.bytes x = s0.ds.bytes x
  word : ∃ w, s.wl.words[l.count]? = some w ∧ w.nfa = G.start + l.here ∧ w.action = .core .unmark

theorem Marked.congr (h : Marked G l s) (h1 : t.wl = s.wl) (h2 : t.ds = s.ds) : Marked G l t := by
  obtain ⟨⟨s0, a1, a2, a3⟩, a4⟩ := h
  exact ⟨⟨s0, a1, by rw [h1]; exact a2, by rw [h2]; exact a3⟩, by rw [h1]; exact a4⟩

theorem marker_turn (g : G.Ok) (h : Stand G l s) (hW : Waits s) {mark : List Nat} (hm : markStep mark l = some l') :
    ∃ s', Leads cfg (depth + 2) s s' ∧ Stand G l' s' ∧ Waits s' ∧ Marked G l s' := by
  simp only [markStep] at hm
  split at hm
  case isFalse => cases hm
  rename_i hm'
  cases hm
  simp only [marksNext, Bool.and_eq_true, decide_eq_true_eq, Bool.not_eq_true', Nat.ble_eq] at hm'
  obtain ⟨⟨⟨⟨⟨m1, m2⟩, m4⟩, m5⟩, m6⟩, m7⟩ := hm'
  rw [Option.isNone_iff_eq_none] at m7
  have e1 : takeTok l = some ((readTok l.text).1, { l with text := (readTok l.text).2 }) := by
    simp only [takeTok]
    split
    · rename_i e; rw [e] at m5; cases m5
    · rename_i e; rw [e]
  split at m4
  case h_2 => cases m4
  rename_i i hi
  split at m4
  case h_2 => cases m4
  rename_i r hr
  simp only [Bool.and_eq_true, decide_eq_true_eq, Bool.not_eq_true'] at m4
  have e2 : takeTok { l with text := (readTok l.text).2 } = some (mark, { l with text := (readTok (readTok l.text).2).2 }) := by
    simp only [takeTok]
    split
    · rename_i e; rw [m1] at e; rw [e] at m2; cases m2
    · rename_i e; rw [← m1, e]
  let P : VM → Prop := fun t => ∃ s2 pre bs rest, Stand G { l with text := (readTok l.text).2 } s2 ∧ s2.task.st.ip = s.task.st.ip ∧
    s2.task.r = s.task.r ∧ s2.wl = s.wl ∧ s2.ds = s.ds ∧
    Defines s2 t pre bs (spelt mark) (.core .unmark) (bodyOf s2.ds (utf8 ((spelt mark).map lowerChar)) + 520) ∧
    (∀ w, t.wl.words[s2.wl.words.length]? = some w → w.nfa = s2.ds.here) ∧
    rest = (readTok (readTok l.text).2).2 ∧ Ascii mark ∧ Ascii rest ∧
    ∃ pre', Reading (atPosition s2.task (byteLen (pre ++ bs ++ spelt mark))) pre' (spelt rest)
  obtain ⟨t, t1, t2⟩ := plain_turn (cfg := cfg) (depth := depth) (P := P) h e1 hi hr m4.1 (fun s2 k1 k2 k3 k4 k5 _ => by
    obtain ⟨pre, bs, n1, n2, n3, n4, n5, n6⟩ := k1.next e2
    have hb := bodyOf_shift k1 g n2
    obtain ⟨t, d1, d2, d3⟩ := marker_run ⟨cfg, execWord cfg (depth + 1)⟩ n1 n4 k1.dict k1.space (k1.nonempty g) (by
      rw [hb, k1.limit]; have := g.room
      show G.start + roundUp8 (l.here + 8 + mark.length) + 520 ≤ _
      omega)
    rw [m4.2]
    exact ⟨t, d1, s2, pre, bs, _, k1, k2, k3, k4, k5, d2, d3, rfl, n2, n3, n6⟩) (fun t ht => by
    obtain ⟨s2, pre, bs, rest, k1, k2, k3, -, -, D, -⟩ := ht
    have hT := D.task
    obtain ⟨kn, -, hf⟩ := D.frame
    refine ⟨?_, ?_, by rw [hT]; exact k1.data, by rw [hT]; exact k1.ret, by rw [hT]; exact k1.control, by rw [hT]; exact k1.floats⟩
    · rw [hf]; exact k1.noError
    · have := hW.1
      have e : pc t = pc s := by simp only [pc]; rw [hT]; exact k2
      have e' : t.ds.limit = s.ds.limit := by
        simp only [DataSpace.limit]; rw [D.start, D.cap, k1.start, k1.cap, h.start, h.cap]
      simp only [Idle, e, e', D.start, k1.start, h.start] at this ⊢
      exact this)
  obtain ⟨s2, pre, bs, rest, k1, k2, k3, y1, y2, D, d3, k5, k6, k7, k8⟩ := t2
  have hT := D.task
  have hb := bodyOf_shift k1 g k6
  rw [hb, Nat.add_assoc] at D
  have hS := k1.defineTop g (here := roundUp8 (l.here + 8 + mark.length) + 520) (top := roundUp8 (l.here + 8 + mark.length) + 520)
    (facts := []) k6 k7 m7 D rfl (by rw [if_pos rfl]; exact Nat.le_refl _) (Nat.le_refl _) m6 k8 nofun
  rw [k5] at hS
  replace hS : Stand G (marked mark (readTok (readTok l.text).2).2 l) t := hS
  obtain ⟨w, w1, w2, -⟩ := D.word
  have hc : s2.wl.words.length = l.count := k1.count
  have hw : t.wl.words[l.count]? = some w := by rw [w1, ← hc, List.getElem?_concat_length]
  refine ⟨t, t1, hS, hW.keep h hS (by simp only [pc]; rw [hT]; exact k2) (by simp only [ret]; rw [hT]; exact congrArg (fun r => r.items.length) k3), ?_, w, hw, ?_, w2⟩
  · refine ⟨s, h, ?_, fun x hx => ?_⟩
    · rw [w1, ← hc, List.take_left, y1]
    · rw [← y2]
      exact D.below x (by rw [k1.here]; exact hx)
  · rw [d3 w (by rw [hc]; exact hw), k1.here]

/-- There are only blanks. -/
theorem end_turn (h : Stand G l s) (hW : Waits s) (hb : (skipBlanks l.text).isEmpty = true) :
    ∃ t, (∀ fuel, evaluateInput cfg depth (fuel + 1) s = .ok ((), t)) ∧ Stand G { l with text := [] } t ∧ Waits t ∧
      t.wl = s.wl ∧ t.ds = s.ds := by
  have hbl : ∀ l : List Nat, (skipBlanks l).isEmpty = true → ∀ c ∈ l, isBlank c = true := by
    intro l
    induction l with
    | nil => exact fun _ _ h => nomatch h
    | cons c l ih =>
      intro he x hx
      simp only [skipBlanks] at he
      split at he
      · rename_i hc
        rcases List.mem_cons.1 hx with rfl | hx
        · exact hc
        · exact ih he x hx
      · cases he
  obtain ⟨pre, hr⟩ := h.reading
  have hN : Next s pre (spelt l.text) [] [] := by
    refine ⟨?_, ?_, nofun, ?_, fun _ => rfl, Option.isSome_iff_exists.1 h.token⟩
    · rw [List.append_nil, List.append_nil]; exact hr
    · intro ch hch
      obtain ⟨c, hc, rfl⟩ := List.mem_map.1 hch
      exact (ofNat_blank c (h.ascii c hc)).1 (hbl _ hb c hc)
    · exact nofun
  have hS := h.took (pre := pre) (bs := spelt l.text) (tok := []) (rest := []) nofun ⟨pre ++ spelt l.text, by
    rw [List.append_nil]
    refine ⟨?_, rfl, ?_⟩
    · show inputBuffer s.task = _
      rw [hr.buffer]
      show _ = Except.ok (some (pre ++ spelt l.text ++ []))
      rw [List.append_nil]
    · show byteLen (pre ++ spelt l.text ++ []) < _
      rw [List.append_nil]; exact hr.bounded⟩
  have e := took_task s pre (spelt l.text) []
  refine ⟨_, fun fuel => ?_, hS, hW.keep h hS (by simp only [pc]; rw [e]; rfl) (by simp only [ret]; rw [e]; rfl), rfl, rfl⟩
  unfold evaluateInput
  simp only [M.bind_apply, hN.parse, getVM_apply]
  rw [if_pos (show (took s pre (spelt l.text) []).tkn = some [] from rfl)]
  rfl

/-- Another text is about to be loaded. -/
theorem load_stand (h : Stand G l s) (hW : Waits s) {text : List Nat} (ha : Ascii text) (hlen : byteLen (spelt text) < 2 ^ 32) :
    ∃ t, (∀ fuel, loadStr cfg depth fuel (spelt text) s = evaluateInput cfg depth fuel t) ∧ Stand G { l with text := text } t ∧
      Waits t ∧ t.wl = s.wl ∧ t.ds = s.ds := by
  obtain ⟨pre, hr⟩ := h.reading
  obtain ⟨t1, e1, b1⟩ : ∃ t1, setInputBuffer s.task none = .ok t1 ∧ ∀ n, ∃ t2, setInputBuffer { t1 with st := { t1.st with sourceIndex := n } } (some (spelt text)) = .ok t2 ∧
      inputBuffer t2 = .ok (some (spelt text)) ∧ t2.st = { s.task.st with sourceIndex := n } ∧ t2.s = s.task.s ∧ t2.r = s.task.r ∧
      t2.c = s.task.c ∧ t2.f = s.task.f ∧ t2.inbuf = some (spelt text) := by
    have hb := hr.buffer
    simp only [setInputBuffer, inputBuffer] at hb ⊢
    by_cases hp : 0 < s.task.st.sourceId.toInt
    · rw [h.steady.source] at hp; cases hp
    · rw [if_neg hp] at hb ⊢
      refine ⟨_, rfl, fun n => ?_⟩
      simp only [if_neg hp]
      exact ⟨_, rfl, by simp only [if_neg hp], rfl, rfl, rfl, rfl, rfl, rfl⟩
  obtain ⟨t2, e2, b2, b3, b4, b5, b6, b7, b8⟩ := b1 0
  let s1 := s.setTask t1
  let s2 := s1.setTask { s1.task with st := { s1.task.st with sourceIndex := 0 } }
  let t := s2.setTask t2
  have h1 : s1.task = t1 := VM.task_setTask _ _
  have h2 : s2.task = { t1 with st := { t1.st with sourceIndex := 0 } } := by
    show (s1.setTask _).task = _
    rw [VM.task_setTask, h1]
  have ht : t.task = t2 := VM.task_setTask _ _
  have hS : Stand G { l with text := text } t := by
    refine h.tweak (t := t) (st := l.stack) (text := text) rfl rfl rfl h.noError h.token rfl (by rw [ht]; exact b6) (by rw [ht]; exact b7)
      (by rw [ht, b5]; exact h.ret) (by rw [ht, b3]; exact h.interpreting) (by rw [ht, b4]; exact h.data) (by rw [ht, b4]; exact h.items) ha
      ⟨[], by rw [ht]; exact b2, by rw [ht, b3]; rfl, Nat.lt_trans hlen (by decide)⟩ ⟨h.steady.cur, h.steady.output, by rw [ht, b3]; exact h.steady.source,
        h.steady.stdout, h.steady.calls, _, by rw [ht]; exact b8, hlen⟩
  refine ⟨t, fun fuel => ?_, hS, hW.keep h hS (by simp only [pc]; rw [ht, b3]) (by simp only [ret]; rw [ht, b5]), rfl, rfl⟩
  have f1 : takeInput s = .ok (some (pre ++ spelt l.text), s1) := by
    simp only [takeInput, hr.buffer, e1]
    rfl
  have f2 : putInput (spelt text) s2 = .ok ((), t) := by
    simp only [putInput, h2, e2]
    rfl
  have f3 : takeInputE s = .ok (pre ++ spelt l.text, s1) := by
    simp only [takeInputE, bind, M.bind, f1]
    rfl
  have f4 : modSt (fun st => { st with sourceIndex := 0 }) s1 = .ok ((), s2) := rfl
  simp only [loadStr, bind, M.bind, f3, f4, f2]

/-- The next token is the name of the marker. -/
theorem unmark_turn (g : G.Ok) {k : Outline} (h : Stand G l s) (hW : Waits s) (hM : Marked G k s) (hst : l.stack = k.stack) {tok : List Nat}
    (ht : takeTok l = some (tok, l1)) (hi : lookup (keyOf tok 0) l.rows = some k.count) {r : Row} (hr : rowAt k.count l.rows = some r)
    (hco : r.co = false) (hac : r.action = .core .unmark) :
    ∃ t, Leads cfg (depth + 2) s t ∧ Stand G { k with text := l1.text } t ∧ Waits t := by
  let P : VM → Prop := fun t => ∃ s2 d wl, Stand G l1 s2 ∧ s2.task.st.ip = s.task.st.ip ∧ s2.task.r = s.task.r ∧ s2.wl = s.wl ∧ s2.ds = s.ds ∧
    Dict t ∧ t = { s2 with ds := d, wl := wl } ∧ d.start = G.start ∧ d.cap = G.cap ∧ d.bytes = s.ds.bytes ∧ wl.words = s.wl.words.take k.count ∧
    d.here = G.start + k.here
  obtain ⟨w, w1, w2, w3⟩ := hM.word
  obtain ⟨t, t1, t2⟩ := plain_turn (cfg := cfg) (depth := depth) (P := P) h ht hi hr hco (fun s2 k1 k2 k3 k4 k5 k6 => by
    have hw : s2.wl.words[s2.task.st.wp]? = some w := by rw [k4, k6]; exact w1
    obtain ⟨t, a1, a2, d, wl, rfl, a4⟩ := unmark_run ⟨cfg, execWord cfg (depth + 1)⟩ k1.dict k1.space hw w3
    have hd : Dict { s2 with ds := d, wl := wl } :=
      (unmark_edit (c' := .same) k1.dict k1.inSpace hw w3 a1).dict k1.dict
    rw [hac]
    refine ⟨_, a1, s2, d, wl, k1, k2, k3, k4, k5, hd, rfl, a2.start.trans k1.start, a4.trans k1.cap, ?_, ?_, ?_⟩
    · rw [← k5]; exact a2.bytes
    · rw [← k4, ← k6]; exact a2.words
    · rw [← w2]; exact a2.here) (fun t ht => by
    obtain ⟨s2, d, wl, k1, k2, k3, k4, k5, k6, rfl, k8, k9, -⟩ := ht
    refine ⟨k1.noError, ?_, k1.data, k1.ret, k1.control, k1.floats⟩
    have := hW.1
    have e : pc ({ s2 with ds := d, wl := wl } : VM) = pc s := k2
    have e1 : d.limit = s.ds.limit := by
      simp only [DataSpace.limit]; rw [k8, k9, h.start, h.cap]
    simp only [Idle, e, k8, e1, h.start] at this ⊢
    exact this)
  obtain ⟨s2, d, wl, k1, k2, k3, k4, k5, k6, rfl, k8, k9, k10, k11, k12⟩ := t2
  obtain ⟨s0, S0, z1, z2⟩ := hM.before
  have hwords : wl.words = s0.wl.words := k11.trans z1
  have hbytes : ∀ x, x < G.start + k.here → d.bytes x = s0.ds.bytes x := fun x hx => by rw [k10]; exact z2 x hx
  have htop := S0.top
  have hlow := S0.low
  have hroom := S0.room
  have hgr := g.room
  have h0 := S0.here
  have hS : Stand G { k with text := l1.text } { s2 with ds := d, wl := wl } := by
    have hlen : d.len = k.here := by simp only [DataSpace.here] at k12; omega
    refine ⟨k1.interpreting, k1.noError, k1.token, k6, ?_, k8, k9, k12, k1.refs, ?_, k1.data, ?_, k1.ret, k1.floats, k1.control, k1.balanced,
      k1.labels, ?_, ?_, ?_, S0.order, ?_, ?_, ?_, hlow, htop, hroom, ?_, k1.ascii, k1.reading,
      ⟨k1.steady.cur, k1.steady.output, k1.steady.source, k1.steady.stdout, k1.steady.calls, k1.steady.line⟩⟩
    · refine ⟨?_, ?_, ?_, ?_, ?_⟩
      · show 0 < d.start; rw [k8]; exact g.pos
      · show d.start % 16 = 0; rw [k8]; exact g.aligned
      · show d.start + d.cap < _; rw [k8, k9]; exact g.small
      · show 16 ≤ d.len; omega
      · show d.len ≤ d.cap; omega
    · have hb' := S0.base
      simp only [baseOf, DataSpace.baseAddr] at hb' ⊢
      rw [DataSpace.cellAt_congr (d := s0.ds), k8, ← S0.start]
      · exact hb'
      · intro x _ hx
        exact hbytes x (by omega)
    · obtain ⟨-, -, e⟩ := takeTok_some ht
      have := k1.items
      rw [e] at this
      rw [← hst]; exact this
    · show wl.words.length = _
      rw [hwords]; exact S0.count
    · intro i hi
      show wl.words[i]? = _
      rw [hwords]; exact S0.kept i hi
    · intro r hr
      obtain ⟨x, x1, x2⟩ := S0.rows r hr
      exact ⟨x, by show wl.words[r.ix]? = _; rw [hwords]; exact x1, x2⟩
    · intro nm
      refine (newest_congr (visible_congr (s := s0) (fun i x hx => ⟨x, ?_, rfl, ?_⟩) (fun i x hx hl => ?_) nm) _).2 (S0.names nm)
      · show wl.words[i]? = _
        rw [hwords]; exact hx
      · have a1 := S0.bodies i x hx
        have a3 := S0.dict.high i x hx
        exact (nameIn_same (d := s0.ds) (d' := d) rfl (fun y _ hy => hbytes y (by omega))).2
      · replace hx : wl.words[i]? = some x := hx
        rw [hwords] at hx
        have := (List.getElem?_eq_some_iff.1 hx).1
        omega
    · intro x hx
      obtain ⟨⟨y, a1, a2, a3⟩, a4, a5⟩ := S0.code x hx
      refine ⟨⟨y, by show wl.words[x.ix]? = _; rw [hwords]; exact a1, a2, a3⟩, ?_, a5⟩
      show (Stmt.seq _ _).At s2.refs G.lv d _
      rw [k1.refs, ← S0.refs]
      refine a4.congr fun z _ hz => hbytes z ?_
      simp only [Stmt.next] at hz
      omega
    · intro f hf
      obtain ⟨x1, x2⟩ := S0.facts f hf
      refine ⟨?_, x2⟩
      show d.cellAt _ = _
      rw [DataSpace.cellAt_congr (d := s0.ds)]
      · exact x1
      · intro x _ hx
        exact hbytes x (by omega)
    · intro i x hx
      replace hx : wl.words[i]? = some x := hx
      rw [hwords] at hx
      exact S0.bodies i x hx
  exact ⟨_, t1, hS, hW.keep h hS k2 (by simp only [ret]; exact congrArg (fun r => r.items.length) k3)⟩

end

end Verif
