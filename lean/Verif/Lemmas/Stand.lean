import Verif.Lemmas.OutlineText
import Verif.Lemmas.Script
import Verif.Props.Defining

/-!
# A machine that is as an outline says
-/

namespace Verif
open Spec Stack

/-- What stays the same while text is loaded: where memory is, the words the compiler uses, and the words that
were there before. -/
structure Ground where
  start : Nat
  cap : Nat
  refs : Refs
  lv : Nat
  words : List Word

structure Ground.Ok (G : Ground) : Prop where
  pos : 0 < G.start
  aligned : G.start % 16 = 0
  small : G.start + G.cap < 2 ^ 63
  room : outlineRoom ≤ G.cap
  size : G.words.length = outlineBase
  compiler : Compiler G.refs G.lv ⟨G.words, fun _ => 0, fun _ => 0, 0⟩
  flit : G.refs.flit ≠ 0
  postpone : Plain ⟨G.words, fun _ => 0, fun _ => 0, 0⟩ G.refs.postponeRt
  does : Plain ⟨G.words, fun _ => 0, fun _ => 0, 0⟩ G.refs.doesRt

/-- The row tells what word `w` is. -/
structure Row.Is (b : Nat) (r : Row) (w : Word) : Prop where
  action : w.action = r.action
  comp : w.compSem = r.comp
  imm : w.isImmediate = r.imm
  co : w.isCompileOnly = r.co
  dfa : w.dfa = b + r.dfa

/-- The first task runs, it reads from the terminal, and nothing was printed. The user was not asked for anything. -/
structure Steady (s : VM) : Prop where
  cur : s.cur = 0
  output : s.outbuf = some []
  source : s.task.st.sourceId = 0
  stdout : s.stdout = []
  calls : s.host.calls = 0
  line : ∃ x, s.task.inbuf = some x ∧ byteLen x < 2 ^ 32

/-- Machine `s` is as outline `l` says. -/
structure Stand (G : Ground) (l : Outline) (s : VM) : Prop where
  interpreting : s.task.st.isCompiling = false
  noError : s.lastError = none
  token : s.tkn.isSome = true
  dict : Dict s
  space : SoundSpace s.ds
  start : s.ds.start = G.start
  cap : s.ds.cap = G.cap
  here : s.ds.here = G.start + l.here
  refs : s.refs = G.refs
  base : baseOf s = 10
  data : Calm s.task.s
  items : s.task.s.items = l.stack.map (Val.cell G.start)
  ret : Calm s.task.r
  floats : Calm s.task.f
  control : Calm s.task.c
  balanced : s.task.c.items = []
  labels : s.forward = []
  count : s.wl.words.length = l.count
  kept : ∀ i, i < outlineBase → s.wl.words[i]? = G.words[i]?
  rows : ∀ r ∈ l.rows, ∃ w, s.wl.words[r.ix]? = some w ∧ r.Is G.start w
  order : l.rows.Pairwise fun a b => b.ix < a.ix
  names : ∀ nm, Newest s nm (lookup (keyOf (codesOf nm) 0) l.rows)
  code : ∀ d ∈ l.defs, (∃ w, s.wl.words[d.ix]? = some w ∧ w.action = .core .nest ∧ w.dfa = G.start + d.dfa) ∧
    (Stmt.seq (d.prog.place (G.start + d.dfa)) .exit).At s.refs G.lv s.ds (G.start + d.dfa) ∧
    (d.prog.place (G.start + d.dfa)).next (G.start + d.dfa) + 8 ≤ G.start + l.top
  facts : ∀ f ∈ l.facts, s.ds.cellAt (G.start + f.1) = BitVec.ofNat 64 f.2 ∧ f.1 + 8 ≤ l.here
  low : 16 ≤ l.top
  top : l.top ≤ l.here
  room : l.here ≤ outlineRoom
  bodies : ∀ (i : Nat) w, s.wl.words[i]? = some w → w.dfa + reserve w ≤ G.start + l.top
  ascii : Ascii l.text
  reading : ∃ pre, Reading s.task pre (spelt l.text)
  steady : Steady s

section
variable {G : Ground} {l l' : Outline} {s t : VM}

/-! ### Stacks -/

theorem calm_push {α : Type} {st : Stack α} (h : Calm st) (v : α) (hl : st.items.length < 64) :
    Calm (st.push v) ∧ (st.push v).items = v :: st.items := by
  have hi := items_eq_iff.2 ((rep_items st).push (by omega) v)
  have hn := items_length st
  refine ⟨⟨by rw [hi]; simp [capacity]; omega, ?_, ?_⟩, hi⟩ <;> simp only [Stack.push, setSlot]
  · rw [if_neg (by bv_omega)]; exact h.over
  · rw [if_neg (by bv_omega)]; exact h.under

theorem calm_pop {α : Type} {st : Stack α} (h : Calm st) {v : α} {xs : List α} (he : st.items = v :: xs) :
    Calm st.pop.2 ∧ st.pop.1 = v ∧ st.pop.2.items = xs := by
  have hr : Rep st (v :: xs) := he ▸ rep_items st
  have h2 := items_eq_iff.2 hr.pop_snd
  have hd := h.depth
  rw [he] at hd
  refine ⟨⟨by rw [h2]; simp only [List.length_cons] at hd; omega, h.over, h.under⟩, hr.pop_fst, h2⟩

/-! ### Parts of the machine -/

theorem Stand.inSpace (h : Stand G l s) : InSpace s := ⟨h.space.small, h.space.inside⟩

theorem Stand.listening (h : Stand G l s) (hi : Idle s) : Listening s :=
  ⟨h.interpreting, h.noError, h.token, hi, h.dict, h.space, h.data, h.ret, h.floats, h.control, h.balanced, h.labels⟩

theorem Stand.limit (h : Stand G l s) : s.ds.limit = G.start + G.cap := by
  simp only [DataSpace.limit, h.start, h.cap]

theorem Stand.words_length (h : Stand G l s) : s.wl.words.length < 2 ^ 63 := h.dict.length_lt h.inSpace

theorem Stand.old (h : Stand G l s) (g : G.Ok) {i : Nat} {w : Word} (hw : G.words[i]? = some w) :
    s.wl.words[i]? = some w := by
  have := (List.getElem?_eq_some_iff.1 hw).1
  rw [h.kept i (by rw [← g.size]; exact this)]
  exact hw

theorem Stand.compiler (h : Stand G l s) (g : G.Ok) : Compiler s.refs G.lv s.wl := by
  rw [h.refs]
  have := h.words_length
  exact g.compiler.mono (fun i w hw => h.old g hw) (by omega)

theorem Stand.row (h : Stand G l s) {i : Nat} {r : Row} (hr : rowAt i l.rows = some r) :
    ∃ w, s.wl.words[i]? = some w ∧ r.Is G.start w ∧ r ∈ l.rows ∧ r.ix = i := by
  have key : ∀ rows, rowAt i rows = some r → r ∈ rows ∧ r.ix = i := by
    intro rows
    induction rows with
    | nil => exact fun h => nomatch h
    | cons a as ih =>
      intro h
      simp only [rowAt] at h
      split at h
      · rename_i hb
        cases h
        exact ⟨List.mem_cons_self, Nat.eq_of_beq_eq_true hb⟩
      · obtain ⟨a1, a2⟩ := ih h
        exact ⟨List.mem_cons_of_mem _ a1, a2⟩
  obtain ⟨k1, k2⟩ := key _ hr
  obtain ⟨w, h1, h2⟩ := h.rows r k1
  exact ⟨w, k2 ▸ h1, h2, k1, k2⟩

theorem Stand.name (h : Stand G l s) {tok : List Nat} (ha : Ascii tok) :
    Newest s (utf8 (spelt tok)) (lookup (keyOf tok 0) l.rows) := by
  have := h.names (utf8 (spelt tok))
  rwa [key_token ha] at this

theorem Stand.many (h : Stand G l s) (g : G.Ok) : outlineBase ≤ l.count := by
  have hlt : outlineBase - 1 < G.words.length := by rw [g.size]; decide
  have h1 := h.kept (outlineBase - 1) (by decide)
  rw [List.getElem?_eq_getElem hlt] at h1
  have := (List.getElem?_eq_some_iff.1 h1).1
  rw [h.count] at this
  simp only [outlineBase] at this ⊢
  omega

/-! ### Changes -/

/-- Only the stacks and the position in the text change. -/
theorem Stand.tweak (h : Stand G l s) {st : List Val} {text : List Nat} (hwl : t.wl = s.wl) (hds : t.ds = s.ds)
    (hrefs : t.refs = s.refs) (herr : t.lastError = none) (htk : t.tkn.isSome = true) (hfw : t.forward = s.forward)
    (hc : t.task.c = s.task.c) (hf : t.task.f = s.task.f) (hr : Calm t.task.r) (hi : t.task.st.isCompiling = false)
    (hd : Calm t.task.s) (hitems : t.task.s.items = st.map (Val.cell G.start)) (ha : Ascii text)
    (hrd : ∃ pre, Reading t.task pre (spelt text)) (hst : Steady t) : Stand G { l with stack := st, text := text } t := by
  refine ⟨hi, herr, htk, h.dict.congr hwl hds, hds ▸ h.space, hds ▸ h.start, hds ▸ h.cap, hds ▸ h.here, hrefs ▸ h.refs,
    ?_, hd, hitems, hr, hf ▸ h.floats, hc ▸ h.control, hc ▸ h.balanced, hfw ▸ h.labels, hwl ▸ h.count, hwl ▸ h.kept,
    hwl ▸ h.rows, h.order, ?_, ?_, hds ▸ h.facts, h.low, h.top, h.room, hwl ▸ h.bodies, ha, hrd, hst⟩
  · have := h.base
    simp only [baseOf] at this ⊢
    rw [hds]; exact this
  · intro nm
    exact (newest_same_words hwl (fun _ _ _ => by rw [hds]) nm _).2 (h.names nm)
  · intro d hd
    rw [hwl, hds, hrefs]
    exact h.code d hd

/-- Memory changes, but not below `top`. -/
theorem Stand.memory (h : Stand G l s) {d : DataSpace} {here : Nat} {facts : List (Nat × Nat)} (hst : d.start = s.ds.start)
    (hcap : d.cap = s.ds.cap) (hh : d.here = G.start + here) (h1 : l.top ≤ here) (h2 : here ≤ outlineRoom)
    (g : G.Ok) (hb : ∀ x, x < G.start + l.top → d.bytes x = s.ds.bytes x)
    (hf : ∀ f ∈ facts, d.cellAt (G.start + f.1) = BitVec.ofNat 64 f.2 ∧ f.1 + 8 ≤ here) :
    Stand G { l with here := here, facts := facts } { s with ds := d } := by
  have hI : Intact s { s with ds := d } := by
    intro i w hw
    have a1 := h.bodies i w hw
    have a3 := h.dict.high i w hw
    refine ⟨fun x _ hx => hb x (by omega), fun e x _ hx => hb x ?_, ?_⟩
    · have a4 : reserve w = 520 := if_pos e
      omega
    · show _ ≤ d.here
      omega
  have hs := h.start
  have hc := h.cap
  have hlow := h.low
  have hr := g.room
  have hlen : d.len = here := by simp only [DataSpace.here] at hh; omega
  refine ⟨h.interpreting, h.noError, h.token, h.dict.frame (l := 0) hI hst rfl rfl (.refl _ _ _), ?_, hst.trans hs, hcap.trans hc,
    hh, h.refs, ?_, h.data, h.items, h.ret, h.floats, h.control, h.balanced, h.labels, h.count, h.kept, h.rows, h.order, ?_, ?_,
    hf, h.low, h1, h2, h.bodies, h.ascii, h.reading, ⟨h.steady.cur, h.steady.output, h.steady.source, h.steady.stdout, h.steady.calls, h.steady.line⟩⟩
  · refine ⟨?_, ?_, ?_, ?_, ?_⟩
    · show 0 < d.start; rw [hst]; exact h.space.pos
    · show d.start % 16 = 0; rw [hst]; exact h.space.aligned
    · show d.start + d.cap < _; rw [hst, hcap]; exact h.space.small
    · show 16 ≤ d.len; omega
    · show d.len ≤ d.cap; omega
  · have hb' := h.base
    simp only [baseOf, DataSpace.baseAddr] at hb' ⊢
    rw [DataSpace.cellAt_congr (d := s.ds), hst]
    · exact hb'
    · intro x _ hx
      exact hb x (by show x < _; have : d.start = G.start := hst.trans hs; omega)
  · intro nm
    refine (newest_same_words (s := s) (t := { s with ds := d }) rfl (fun i w hw => ?_) nm _).2 (h.names nm)
    exact (nameIn_same (d := s.ds) (d' := d) rfl (hI i w hw).1).2
  · intro x hx
    obtain ⟨a1, a2, a3⟩ := h.code x hx
    refine ⟨a1, a2.congr fun z _ hz => hb z ?_, a3⟩
    simp only [Stmt.next] at hz
    omega

/-- One more cell. -/
theorem Stand.cell (h : Stand G l s) (g : G.Ok) {v : Val} {d : DataSpace} (hd : Extends s.ds [v.cell G.start] d)
    (hl : addCell v l = some l') : Stand G l' { s with ds := d } := by
  simp only [addCell, fit] at hl
  split at hl
  case isFalse => cases hl
  rename_i hfit
  cases hl
  have hh := h.here
  have hlen := hd.len
  have hst := hd.start
  have htop := h.top
  refine h.memory hst hd.cap ?_ (by show _ ≤ l.here + 8; omega) hfit g (fun x hx => hd.rest x (.inl (by omega))) ?_
  · simp only [DataSpace.here, List.length_singleton] at hlen hh ⊢
    omega
  · intro f hf
    rcases List.mem_append.1 hf with hf | hf
    · cases v with
      | num n =>
        simp only [known, List.mem_singleton] at hf
        subst hf
        refine ⟨?_, Nat.le_refl _⟩
        have := hd.cells 0 _ rfl
        rw [hh] at this
        exact this
      | addr a => cases hf
    · obtain ⟨a1, a2⟩ := h.facts f hf
      refine ⟨?_, by omega⟩
      rw [DataSpace.cellAt_congr (d := s.ds)]
      · exact a1
      · intro x _ hx
        exact hd.rest x (.inl (by omega))

theorem Stand.low_rows (h : Stand G l s) {r : Row} (hr : r ∈ l.rows) : r.ix < l.count := by
  obtain ⟨w, h1, -⟩ := h.rows r hr
  have := (List.getElem?_eq_some_iff.1 h1).1
  rw [← h.count]; exact this

/-- The newest word changes. -/
theorem Stand.alter (h : Stand G l s) {r r' : Row} {rs : List Row} (hrow : l.rows = r :: rs) (hb : outlineBase ≤ r.ix)
    {w v : Word} (hw : s.wl.words[r.ix]? = some w) (e1 : v.link = w.link) (e2 : v.hash = w.hash)
    (e3 : v.nfa = w.nfa) (e4 : v.dfa = w.dfa) (e5 : v.hidden = w.hidden)
    (e6 : v.action = w.action ∨ w.action = .core .pVar ∧ v.action = .core .doesAction) (hk : r'.key = r.key) (hi : r'.ix = r.ix)
    (hv : r'.Is G.start v) : Stand G { l with rows := r' :: rs } (withWord s r.ix v) := by
  have hlt := (List.getElem?_eq_some_iff.1 hw).1
  have hget : ∀ i, (withWord s r.ix v).wl.words[i]? = if i = r.ix then some v else s.wl.words[i]? := by
    intro i
    show (s.wl.words.set r.ix v)[i]? = _
    rw [List.getElem?_set]
    by_cases hi : r.ix = i
    · rw [if_pos hi, if_pos hi.symm, if_pos hlt]
    · rw [if_neg hi, if_neg (Ne.symm hi)]
  have hsame : SameWords .any r.ix s.wl.words (withWord s r.ix v).wl.words := by
    refine ⟨List.length_set, fun i x y hx hy => ?_⟩
    rw [hget] at hx
    split at hx
    · rename_i hi
      cases hx
      subst hi
      rw [hw] at hy
      cases hy
      refine ⟨⟨e1, e2, e3, e4, ?_⟩, trivial, fun e => absurd rfl e⟩
      rcases e6 with e | e
      · exact .inl e
      · exact .inr e.2
    · rw [hx] at hy
      cases hy
      exact ⟨⟨rfl, rfl, rfl, rfl, .inl rfl⟩, trivial, fun _ => ⟨_, _, rfl⟩⟩
  have hI : Intact s (withWord s r.ix v) := h.dict.intact (Nat.le_refl _) (fun _ _ => rfl)
  have hord := h.order
  rw [hrow, List.pairwise_cons] at hord
  refine ⟨h.interpreting, h.noError, h.token, h.dict.frame hI rfl rfl rfl hsame, h.space, h.start, h.cap,
    h.here, h.refs, h.base, h.data, h.items, h.ret, h.floats, h.control, h.balanced, h.labels, ?_, ?_, ?_, ?_, ?_, ?_,
    h.facts, h.low, h.top, h.room, ?_, h.ascii, h.reading, ⟨h.steady.cur, h.steady.output, h.steady.source, h.steady.stdout, h.steady.calls, h.steady.line⟩⟩
  · exact List.length_set.trans h.count
  · intro i hi
    rw [hget, if_neg (by omega)]
    exact h.kept i hi
  · intro x hx
    rcases List.mem_cons.1 hx with rfl | hx
    · rw [hget, if_pos hi]; exact ⟨v, rfl, hv⟩
    · have := hord.1 x hx
      rw [hget, if_neg (by omega)]
      exact h.rows x (by rw [hrow]; exact List.mem_cons_of_mem _ hx)
  · rw [List.pairwise_cons]
    exact ⟨fun x hx => by have := hord.1 x hx; rw [hi]; exact this, hord.2⟩
  · intro nm
    have hn := h.names nm
    rw [hrow] at hn
    have el : lookup (keyOf (codesOf nm) 0) (r' :: rs) = lookup (keyOf (codesOf nm) 0) (r :: rs) := by
      simp only [lookup, hk, hi]
    show Newest _ nm (lookup _ (r' :: rs))
    rw [el]
    refine (newest_congr (visible_congr (fun i x hx => ?_) (fun i x hx hl => ?_) nm) _).2 hn
    · rw [hget]
      split
      · rename_i e
        subst e
        rw [hw] at hx
        cases hx
        exact ⟨v, rfl, e5, by simp only [nameIn, e3]; rfl⟩
      · exact ⟨x, hx, rfl, rfl⟩
    · have := (List.getElem?_eq_some_iff.1 hx).1
      rw [show (withWord s r.ix v).wl.words.length = s.wl.words.length from List.length_set] at this
      omega
  · intro d hd
    obtain ⟨⟨x, a1, a2, a3⟩, a4⟩ := h.code d hd
    refine ⟨?_, a4⟩
    rw [hget]
    split
    · rename_i e
      rw [e, hw] at a1
      cases a1
      rcases e6 with e | e
      · exact ⟨v, rfl, e.trans a2, e4.trans a3⟩
      · rw [a2] at e; cases e.1
    · exact ⟨x, a1, a2, a3⟩
  · intro i x hx
    rw [hget] at hx
    split at hx
    · cases hx
      have a1 := h.bodies _ w hw
      have a2 : reserve v ≤ reserve w := by
        unfold reserve
        rcases e6 with e | e
        · rw [e]; exact Nat.le_refl _
        · rw [if_neg (by rw [e.2]; nofun)]; exact Nat.zero_le _
      show v.dfa + reserve v ≤ G.start + l.top
      omega
    · exact h.bodies i x hx

/-! ### Reading a token -/

theorem takeTok_some {tok : List Nat} (h : takeTok l = some (tok, l')) :
    tok = (readTok l.text).1 ∧ tok ≠ [] ∧ l' = { l with text := (readTok l.text).2 } := by
  simp only [takeTok] at h
  split at h
  · cases h
  · rename_i c t e
    cases h
    exact ⟨e.symm, nofun, rfl⟩

theorem Stand.next (h : Stand G l s) {tok : List Nat} (ht : takeTok l = some (tok, l')) :
    ∃ pre bs, Next s pre bs (spelt tok) (spelt l'.text) ∧ Ascii tok ∧ Ascii l'.text ∧ spelt tok ≠ [] ∧
      l' = { l with text := l'.text } ∧ ∃ pre', Reading (atPosition s.task (byteLen (pre ++ bs ++ spelt tok))) pre' (spelt l'.text) := by
  obtain ⟨h1, h2, h3⟩ := takeTok_some ht
  obtain ⟨a1, a2⟩ := ascii_readTok h.ascii
  obtain ⟨bs, b1, b2, b3, b4⟩ := readTok_parts h.ascii
  obtain ⟨pre, hr⟩ := h.reading
  have e : l'.text = (readTok l.text).2 := by rw [h3]
  have hne : spelt tok ≠ [] := by
    intro e; apply h2; cases tok with | nil => rfl | cons _ _ => cases e
  refine ⟨pre, bs, ⟨?_, b2, ?_, ?_, fun e => absurd e hne, Option.isSome_iff_exists.1 h.token⟩, ?_, ?_, hne, ?_, pre ++ bs ++ spelt tok, ?_⟩
  · rw [h1, e, ← b1]; exact hr
  · rw [h1]; exact b3
  · rw [e]; exact b4
  · rw [h1]; exact a1
  · rw [e]; exact a2
  · rw [e]; exact h3
  · rw [b1] at hr
    refine ⟨?_, rfl, ?_⟩
    · have := hr.buffer
      rw [h1, e]
      simp only [List.append_assoc]
      exact this
    · have := hr.bounded
      rw [h1, e]
      simp only [List.append_assoc]
      exact this

/-! ### New words -/

theorem bodyOf_shift (h : Stand G l s) (g : G.Ok) {tok : List Nat} (ha : Ascii tok) :
    bodyOf s.ds (utf8 ((spelt tok).map lowerChar)) = G.start + roundUp8 (l.here + 8 + tok.length) := by
  have := g.aligned
  rw [bodyOf, h.here, length_lower ha]
  unfold roundUp8
  omega

/-- A name that is not in the outline is not found. -/
theorem Stand.newName (h : Stand G l s) {tok : List Nat} (ha : Ascii tok) (hn : lookup (keyOf tok 0) l.rows = none) :
    Newest s (utf8 ((spelt tok).map lowerChar)) none := by
  have := h.names (utf8 ((spelt tok).map lowerChar))
  rw [key_lower ha, hn] at this
  exact this

/-- The word list has a new word at its end. -/
theorem Stand.defineTop (h : Stand G l s) (g : G.Ok) {pre bs : List Char} {tok rest : List Nat} {p : Prim} {here d top : Nat}
    {facts : List (Nat × Nat)} (ha : Ascii tok) (har : Ascii rest)
    (hnew : lookup (keyOf tok 0) l.rows = none)
    (D : Defines s t pre bs (spelt tok) p (G.start + here)) (hd : d = roundUp8 (l.here + 8 + tok.length))
    (h0 : d + (if p = .core .unmark then 520 else 0) ≤ top) (h1 : top ≤ here) (h2 : here ≤ outlineRoom)
    (hr : ∃ pre', Reading (atPosition s.task (byteLen (pre ++ bs ++ spelt tok))) pre' (spelt rest))
    (hf : ∀ f ∈ facts, t.ds.cellAt (G.start + f.1) = BitVec.ofNat 64 f.2 ∧ f.1 + 8 ≤ here) :
    Stand G { l with
      rows := ⟨keyOf tok 0, l.count, p, .word, false, false, d⟩ :: l.rows
      count := l.count + 1, here := here, top := top, facts := facts ++ l.facts, text := rest } t := by
  obtain ⟨known, hkn, hfr⟩ := D.frame
  obtain ⟨w, w1, w2, w3, w4, w5, w6⟩ := D.word
  have htask : t.task = atPosition s.task (byteLen (pre ++ bs ++ spelt tok)) := by
    rw [hfr]; exact took_task s pre bs (spelt tok)
  have hkn' : known = false := by
    have hn := h.newName ha hnew
    cases known with
    | false => rfl
    | true =>
      obtain ⟨i, hi⟩ := hkn.1 rfl
      exact absurd hi (hn i)
  have herr : t.lastError = s.lastError := by rw [hfr]; rfl
  have hrefs : t.refs = s.refs := by rw [hfr]; rfl
  have hfw : t.forward = s.forward := by rw [hfr]; rfl
  have htk : t.tkn = some ((spelt tok).map lowerChar) := by rw [hfr]
  have hc := h.many g
  have hcount := h.count
  have hhere := h.here
  have htop := h.top
  have hlow := h.low
  have hstart : t.ds.start = G.start := D.start.trans h.start
  have hd' : l.here + 8 ≤ d := by
    have := roundUp8_le (l.here + 8 + tok.length)
    omega
  have hdfa : w.dfa = G.start + d := by rw [w3, bodyOf_shift h g ha, hd]
  have hold : ∀ {i : Nat} {x : Word}, s.wl.words[i]? = some x → t.wl.words[i]? = some x := by
    intro i x hx
    have := (List.getElem?_eq_some_iff.1 hx).1
    rw [w1, List.getElem?_append_left this]; exact hx
  have hnw : t.wl.words[l.count]? = some w := by rw [w1, ← hcount, List.getElem?_concat_length]
  refine ⟨by rw [htask]; exact h.interpreting, herr.trans h.noError, by rw [htk]; rfl, D.dict, D.space, hstart,
    D.cap.trans h.cap, D.top, hrefs.trans h.refs, ?_, by rw [htask]; exact h.data, by rw [htask]; exact h.items,
    by rw [htask]; exact h.ret, by rw [htask]; exact h.floats, by rw [htask]; exact h.control, by rw [htask]; exact h.balanced,
    hfw.trans h.labels, ?_, ?_, ?_, ?_, ?_, ?_, ?_, by show 16 ≤ top; omega, h1, h2, ?_, har, by rw [htask]; exact hr,
    ⟨by rw [hfr]; exact h.steady.cur, by rw [hfr]; show s.outbuf.map _ = _; rw [hkn', h.steady.output]; rfl, by rw [htask]; exact h.steady.source,
      by rw [hfr]; exact h.steady.stdout, by rw [hfr]; exact h.steady.calls, by rw [htask]; exact h.steady.line⟩⟩
  · have hb := h.base
    simp only [baseOf, DataSpace.baseAddr] at hb ⊢
    rw [DataSpace.cellAt_congr (d := s.ds), D.start]
    · exact hb
    · intro x _ hx
      exact D.below x (by omega)
  · rw [w1, List.length_append, hcount]; rfl
  · intro i hi
    rw [w1, List.getElem?_append_left (by omega)]
    exact h.kept i hi
  · intro r hr
    rcases List.mem_cons.1 hr with rfl | hr
    · exact ⟨w, hnw, w2, w4, w5, w6, hdfa⟩
    · obtain ⟨x, a1, a2⟩ := h.rows r hr
      exact ⟨x, hold a1, a2⟩
  · rw [List.pairwise_cons]
    exact ⟨fun r hr => h.low_rows hr, h.order⟩
  · intro nm
    have hk : SameName (utf8 ((spelt tok).map lowerChar)) nm ↔ keyOf tok 0 = keyOf (codesOf nm) 0 := by
      rw [sameName_key, key_lower ha]
    simp only [lookup]
    split
    · rename_i e
      have := D.found nm (hk.2 (Nat.eq_of_beq_eq_true e))
      rw [hcount] at this
      exact this
    · rename_i e
      have hne : ¬ SameName (utf8 ((spelt tok).map lowerChar)) nm := fun e' => e (by rw [hk.1 e']; exact Nat.beq_refl _)
      exact (D.others nm _ hne).2 (h.names nm)
  · intro x hx
    obtain ⟨⟨y, a1, a2, a3⟩, a4, a5⟩ := h.code x hx
    refine ⟨⟨y, hold a1, a2, a3⟩, ?_, by show _ ≤ G.start + top; omega⟩
    rw [hrefs]
    refine a4.congr fun z _ hz => D.below z ?_
    simp only [Stmt.next] at hz
    omega
  · intro f hf'
    rcases List.mem_append.1 hf' with hf' | hf'
    · exact hf f hf'
    · obtain ⟨a1, a2⟩ := h.facts f hf'
      refine ⟨?_, by show _ ≤ here; omega⟩
      rw [DataSpace.cellAt_congr (d := s.ds)]
      · exact a1
      · intro x _ hx
        exact D.below x (by omega)
  · intro i x hx
    show x.dfa + reserve x ≤ G.start + top
    rw [w1] at hx
    by_cases hi : i < s.wl.words.length
    · rw [List.getElem?_append_left hi] at hx
      have a1 := h.bodies i x hx
      omega
    · have hi' : i = s.wl.words.length := by
        have := (List.getElem?_eq_some_iff.1 hx).1
        simp at this
        omega
      rw [hi', List.getElem?_concat_length] at hx
      cases hx
      rw [reserve, w2]
      omega

/-- The word list has a new word at its end, which is no marker. -/
theorem Stand.define (h : Stand G l s) (g : G.Ok) {pre bs : List Char} {tok rest : List Nat} {p : Prim} {here d : Nat}
    {facts : List (Nat × Nat)} (ha : Ascii tok) (har : Ascii rest) (hp : p ≠ .core .unmark)
    (hnew : lookup (keyOf tok 0) l.rows = none)
    (D : Defines s t pre bs (spelt tok) p (G.start + here)) (hd : d = roundUp8 (l.here + 8 + tok.length))
    (h1 : d ≤ here) (h2 : here ≤ outlineRoom)
    (hr : ∃ pre', Reading (atPosition s.task (byteLen (pre ++ bs ++ spelt tok))) pre' (spelt rest))
    (hf : ∀ f ∈ facts, t.ds.cellAt (G.start + f.1) = BitVec.ofNat 64 f.2 ∧ f.1 + 8 ≤ here) :
    Stand G { l with
      rows := ⟨keyOf tok 0, l.count, p, .word, false, false, d⟩ :: l.rows
      count := l.count + 1, here := here, top := d, facts := facts ++ l.facts, text := rest } t :=
  h.defineTop g ha har hnew D hd (by rw [if_neg hp]; exact Nat.le_refl _) h1 h2 hr hf

end

end Verif
