import Verif.Lemmas.StandBody

/-!
# The words there are before any text is loaded
-/

namespace Verif
open Spec Stack

/-- Adding a word to any machine with room for it. -/
theorem addPrimitive_run (c : Ctx) {p : Prim} {name : List Byte} {s : VM} (hs : SoundSpace s.ds)
    (hr : bodyOf s.ds name ≤ s.ds.limit) :
    ∃ t, addPrimitive c name p s = .ok ((), t) ∧ Added p name s t ∧ t.ds.here = bodyOf s.ds name ∧
      t = { s with ds := t.ds, wl := t.wl } := by
  have hup := roundUp8_le (s.ds.here + 8 + name.length)
  have hup' : s.ds.here + 8 + name.length ≤ bodyOf s.ds name := by simp only [bodyOf, roundUp8]; omega
  obtain ⟨d1, g1⟩ := compileStr_ok (oc := c.oc) (bs := name) (d := s.ds) ⟨hs.small, hs.inside⟩ (by omega)
  obtain ⟨-, e2, e3, e4, e5, e6, e7, e8⟩ := compileStr_spec hs.small g1
  have hh1 : d1.here = s.ds.here + 8 + name.length := by simp only [DataSpace.here, e2, e4]; omega
  have g2 := align_ok (oc := c.oc) (d := d1) ⟨by rw [e2, e3]; exact hs.small, e5⟩
    (by rw [hh1]; simp only [DataSpace.limit, e2, e3]; exact hr)
  rw [hh1] at g2
  have hst : s.ds.start ≤ s.ds.here := by simp [DataSpace.here]
  let d2 : DataSpace := { d1 with len := bodyOf s.ds name - d1.start }
  have hh2 : d2.here = bodyOf s.ds name := by show d1.start + (_ - d1.start) = _; omega
  let t : VM := { s with
    ds := d2
    wl := s.wl.push name (Word.new p .word s.ds.here (bodyOf s.ds name)) }
  have hadd : Added p name s t := by
    refine ⟨e2, e3, ?_, ?_, e8, ?_, e6, e7, rfl⟩
    · show bodyOf s.ds name - d1.start ≤ d1.cap
      simp only [DataSpace.limit] at hr
      omega
    · show s.wl.push name _ = s.wl.push name (Word.new p .word s.ds.here d2.here)
      rw [hh2]
    · show _ ≤ d2.here
      omega
  refine ⟨t, ?_, hadd, hh2, rfl⟩
  have e' : compileStrM c name s = .ok (s.ds.here, { s with ds := d1 }) := by
    unfold compileStrM
    rw [g1]
  rw [addPrimitive, M.bind_ok e', M.bind_ok (dsOp_ok (s := { s with ds := d1 }) g2)]
  show Except.ok ((), _) = Except.ok ((), _)
  congr 2
  simp only [t]
  have e3 : ({ d1 with len := roundUp8 (s.ds.here + 8 + name.length) - d1.start } : DataSpace).here =
    bodyOf s.ds name := hh2
  rw [e3]
  rfl

/-- Machine `s`, with its data space at `b`, has been made from nothing by adding the words of outline `l`. -/
structure Built (b cap : Nat) (l : Outline) (s : VM) : Prop where
  frame : s = { VM.blank b cap with wl := s.wl, ds := s.ds, refs := s.refs, tasks := s.tasks }
  terminal : s.tasks 0 = { Task.newTerminal with awake := (s.tasks 0).awake }
  dict : Dict s
  space : SoundSpace s.ds
  start : s.ds.start = b
  cap : s.ds.cap = cap
  here : s.ds.here = b + l.here
  base : baseOf s = 10
  count : s.wl.words.length = l.count
  many : 1 ≤ l.count
  rows : ∀ r ∈ l.rows, ∃ w, s.wl.words[r.ix]? = some w ∧ r.Is b w
  order : l.rows.Pairwise fun a b => b.ix < a.ix
  names : ∀ nm, Newest s nm (lookup (keyOf (codesOf nm) 0) l.rows)
  low : 16 ≤ l.top
  top : l.top = l.here
  room : l.here ≤ outlineRoom
  bodies : ∀ (i : Nat) w, s.wl.words[i]? = some w → w.dfa ≤ b + l.top ∧ w.action ≠ .core .unmark

section
variable {b cap : Nat} {l : Outline} {s t : VM}

theorem Built.inSpace (h : Built b cap l s) : InSpace s := ⟨h.space.small, h.space.inside⟩

theorem Built.low_rows (h : Built b cap l s) {r : Row} (hr : r ∈ l.rows) : r.ix < l.count := by
  obtain ⟨w, h1, -⟩ := h.rows r hr
  have := (List.getElem?_eq_some_iff.1 h1).1
  rw [← h.count]; exact this

theorem lookup_map {g : Row → Row} (hg : ∀ r, (g r).key = r.key ∧ (g r).ix = r.ix) (k : Nat) :
    ∀ rows : List Row, lookup k (rows.map g) = lookup k rows
  | [] => rfl
  | r :: rs => by simp only [List.map_cons, lookup, (hg r).1, (hg r).2, lookup_map hg k rs]

/-- One word changes. -/
theorem Built.alter (h : Built b cap l s) {i : Nat} {w v : Word} (hw : s.wl.words[i]? = some w) (e1 : v.link = w.link)
    (e2 : v.hash = w.hash) (e3 : v.nfa = w.nfa) (e4 : v.dfa = w.dfa) (e5 : v.hidden = w.hidden) (e6 : v.action = w.action)
    {g : Row → Row} (hg : ∀ r, (g r).key = r.key ∧ (g r).ix = r.ix) (hi : ∀ r, r.ix ≠ i → g r = r)
    (hv : ∀ r, r.Is b w → r.ix = i → (g r).Is b v) :
    Built b cap { l with rows := l.rows.map g } (withWord s i v) := by
  have hlt := (List.getElem?_eq_some_iff.1 hw).1
  have hget : ∀ j, (withWord s i v).wl.words[j]? = if j = i then some v else s.wl.words[j]? := by
    intro j
    show (s.wl.words.set i v)[j]? = _
    rw [List.getElem?_set]
    by_cases hj : i = j
    · rw [if_pos hj, if_pos hj.symm, if_pos hlt]
    · rw [if_neg hj, if_neg (Ne.symm hj)]
  have hsame : SameWords .any i s.wl.words (withWord s i v).wl.words := by
    refine ⟨List.length_set, fun j x y hx hy => ?_⟩
    rw [hget] at hx
    split at hx
    · rename_i hj
      cases hx
      subst hj
      rw [hw] at hy
      cases hy
      exact ⟨⟨e1, e2, e3, e4, .inl e6⟩, trivial, fun e => absurd rfl e⟩
    · rw [hx] at hy
      cases hy
      exact ⟨⟨rfl, rfl, rfl, rfl, .inl rfl⟩, trivial, fun _ => ⟨_, _, rfl⟩⟩
  have hI : Intact s (withWord s i v) := h.dict.intact (Nat.le_refl _) (fun _ _ => rfl)
  refine ⟨?_, h.terminal, h.dict.frame hI rfl rfl rfl hsame, h.space, h.start, h.cap,
    h.here, h.base, ?_, h.many, ?_, ?_, ?_, h.low, h.top, h.room, ?_⟩
  · have := h.frame
    show withWord s i v = { VM.blank b cap with
      wl := (withWord s i v).wl, ds := s.ds, refs := s.refs, tasks := s.tasks }
    conv => lhs; rw [this]
    rfl
  · exact List.length_set.trans h.count
  · intro x hx
    obtain ⟨r, hr, rfl⟩ := List.mem_map.1 hx
    obtain ⟨y, a1, a2⟩ := h.rows r hr
    rw [(hg r).2, hget]
    split
    · rename_i e
      rw [e, hw] at a1
      cases a1
      exact ⟨v, rfl, hv r a2 e⟩
    · rename_i e
      rw [hi r e]
      exact ⟨y, a1, a2⟩
  · show (l.rows.map g).Pairwise _
    rw [List.pairwise_map]
    exact h.order.imp fun {x y} hxy => by rw [(hg x).2, (hg y).2]; exact hxy
  · intro nm
    show Newest _ nm (lookup _ (l.rows.map g))
    rw [lookup_map hg]
    refine (newest_congr (visible_congr (fun j x hx => ?_) (fun j x hx hl => ?_) nm) _).2 (h.names nm)
    · rw [hget]
      split
      · rename_i e
        subst e
        rw [hw] at hx
        cases hx
        exact ⟨v, rfl, e5, by simp only [nameIn, e3]; rfl⟩
      · exact ⟨x, hx, rfl, rfl⟩
    · have := (List.getElem?_eq_some_iff.1 hx).1
      rw [show (withWord s i v).wl.words.length = s.wl.words.length from List.length_set] at this
      omega
  · intro j x hx
    rw [hget] at hx
    split at hx
    · cases hx
      obtain ⟨a1, a2⟩ := h.bodies _ w hw
      exact ⟨e4 ▸ a1, e6 ▸ a2⟩
    · exact h.bodies j x hx

theorem map_top {f : Row → Row} {r : Row} {rs : List Row} (ho : (r :: rs).Pairwise fun a b => b.ix < a.ix) :
    (r :: rs).map (fun x => if x.ix = r.ix then f x else x) = f r :: rs := by
  rw [List.pairwise_cons] at ho
  rw [List.map_cons, if_pos rfl]
  congr 1
  conv => rhs; rw [← List.map_id' rs]
  apply List.map_congr_left
  intro x hx
  have := ho.1 x hx
  rw [if_neg (by omega)]

/-- One more word of a table. -/
def addOne (e : Entry) (l : Outline) : Outline :=
  let d := roundUp8 (l.here + 8 + (nameCodes e.name).length)
  { l with
    rows := ⟨keyOf (nameCodes e.name) 0, l.count, e.action, .word, e.imm, e.co, d⟩ :: l.rows
    count := l.count + 1, here := d, top := d }

def addWords : List Entry → Outline → Outline
  | [], l => l
  | e :: es, l => addWords es (addOne e l)

/-- There is room for the words of a table, and there are no markers. -/
def tableOk : List Entry → Outline → Bool
  | [], _ => true
  | e :: es, l => decide (e.action ≠ .core .unmark) && Nat.ble (addOne e l).here outlineRoom && tableOk es (addOne e l)

/-- Where the data space may be. -/
structure Site (b cap : Nat) : Prop where
  pos : 0 < b
  aligned : b % 16 = 0
  small : b + cap < 2 ^ 63
  room : outlineRoom ≤ cap

theorem modWord_last (f : Word → Word) {w : Word} (hd : Dict s) (hw : s.wl.words[s.wl.words.length - 1]? = some w) :
    (do
      let wl ← getWl
      modWord wl.last f : M Unit) s = .ok ((), withWord s (s.wl.words.length - 1) (f w)) := by
  rw [M.bind_apply, getWl_apply]
  show modWord s.wl.last f s = _
  rw [hd.last]
  unfold modWord
  rw [hw]
  rfl

theorem Built.add (h : Built b cap l s) (hb : Site b cap) (c : Ctx) {p : Prim} {name : List Byte} {d : Nat} (hp : p ≠ .core .unmark)
    (hd : d = roundUp8 (l.here + 8 + (codesOf name).length)) (hr : d ≤ outlineRoom) :
    ∃ t, addPrimitive c name p s = .ok ((), t) ∧ t.refs = s.refs ∧
      (∀ i, i < s.wl.words.length → t.wl.words[i]? = s.wl.words[i]?) ∧ Built b cap { l with
        rows := ⟨keyOf (codesOf name) 0, l.count, p, .word, false, false, d⟩ :: l.rows
        count := l.count + 1, here := d, top := d } t := by
  have hlen : (codesOf name).length = name.length := List.length_map ..
  have hbody : bodyOf s.ds name = b + d := by
    have := hb.aligned
    rw [bodyOf, h.here, hd, hlen]
    unfold roundUp8
    omega
  have hroom := hb.room
  obtain ⟨t, t1, hadd, t3, t4⟩ := addPrimitive_run c (p := p) (name := name) h.space (by
    rw [hbody]; simp only [DataSpace.limit, h.start, h.cap]; omega)
  have hne : s.wl.words ≠ [] := by
    intro e
    have := h.count
    have := h.many
    rw [e] at *
    simp at *
    omega
  have hn := hadd.newest h.dict h.inSpace hne (t := t) rfl (fun _ _ => rfl) (Nat.le_refl _)
  have hed : Edit .any s t := hadd.edit' hp h.inSpace rfl rfl (fun _ _ => rfl) (Nat.le_refl _)
  have hwl := hadd.wl
  have hcount := h.count
  have hhere := h.here
  have htop := h.top
  have hlow := h.low
  have hh : t.ds.here = b + d := t3.trans hbody
  have hd' : l.here + 8 ≤ d := by
    have := roundUp8_le (l.here + 8 + (codesOf name).length)
    omega
  have hrest := hadd.here
  have hws : t.wl.words = s.wl.words ++ [{ Word.new p .word s.ds.here t.ds.here with
      link := s.wl.buckets (Wordlist.bucketOf (Wordlist.hash name)), hash := Wordlist.hash name }] := by
    rw [hwl]; rfl
  have hstart : t.ds.start = b := hadd.start.trans h.start
  refine ⟨t, t1, by rw [t4], (fun i hi => by rw [hws, List.getElem?_append_left hi]), ?_, ?_, hed.dict h.dict, ?_, hstart, hadd.cap.trans h.cap, hh, ?_, ?_, by show 1 ≤ l.count + 1; omega, ?_, ?_, ?_,
    by show 16 ≤ d; omega, rfl, hr, ?_⟩
  · conv => lhs; rw [t4, h.frame]
    rw [show t.refs = s.refs by rw [t4], show t.tasks = s.tasks by rw [t4]]
  · rw [show t.tasks = s.tasks by rw [t4]]; exact h.terminal
  · refine ⟨?_, ?_, ?_, ?_, hadd.len⟩
    · rw [hstart]; exact hb.pos
    · rw [hstart]; exact hb.aligned
    · rw [hadd.start, hadd.cap]; exact h.space.small
    · have := h.space.vars
      simp only [DataSpace.here] at hh hhere
      omega
  · have hb := h.base
    simp only [baseOf, DataSpace.baseAddr] at hb ⊢
    rw [DataSpace.cellAt_congr (d := s.ds), hadd.start]
    · exact hb
    · intro x _ hx
      have := h.start
      exact hadd.below x (by rw [hstart] at hx; omega)
  · rw [hws, List.length_append, hcount]; rfl
  · intro r hr
    rcases List.mem_cons.1 hr with rfl | hr
    · refine ⟨_, by rw [hws, ← hcount, List.getElem?_concat_length], rfl, rfl, rfl, rfl, hh⟩
    · obtain ⟨x, a1, a2⟩ := h.rows r hr
      have := (List.getElem?_eq_some_iff.1 a1).1
      exact ⟨x, by rw [hws, List.getElem?_append_left this]; exact a1, a2⟩
  · rw [List.pairwise_cons]
    exact ⟨fun r hr => h.low_rows hr, h.order⟩
  · intro nm
    have hk := sameName_key name nm
    simp only [lookup]
    split
    · rename_i e
      have := hn.1 nm (hk.2 (Nat.eq_of_beq_eq_true e))
      rw [hcount] at this
      exact this
    · rename_i e
      have hne : ¬ SameName name nm := fun e' => e (by rw [hk.1 e']; exact Nat.beq_refl _)
      exact (hn.2 nm _ hne).2 (h.names nm)
  · intro i x hx
    show x.dfa ≤ b + d ∧ _
    rw [hws] at hx
    by_cases hi : i < s.wl.words.length
    · rw [List.getElem?_append_left hi] at hx
      obtain ⟨a1, a2⟩ := h.bodies i x hx
      exact ⟨by omega, a2⟩
    · have hi' : i = s.wl.words.length := by
        have := (List.getElem?_eq_some_iff.1 hx).1
        simp at this
        omega
      rw [hi', List.getElem?_concat_length] at hx
      cases hx
      exact ⟨Nat.le_of_eq hh, hp⟩

/-- The newest word gets a flag. -/
theorem Built.flag (h : Built b cap l s) {r : Row} {rs : List Row} (hrow : l.rows = r :: rs) (hix : r.ix + 1 = l.count)
    (f : Word → Word) (g : Row → Row) (hf : ∀ w, (f w).link = w.link ∧ (f w).hash = w.hash ∧ (f w).nfa = w.nfa ∧
      (f w).dfa = w.dfa ∧ (f w).hidden = w.hidden ∧ (f w).action = w.action)
    (hg : ∀ r, (g r).key = r.key ∧ (g r).ix = r.ix) (hv : ∀ r w, r.Is b w → (g r).Is b (f w)) :
    ∃ t, (do
      let wl ← getWl
      modWord wl.last f : M Unit) s = .ok ((), t) ∧ t.refs = s.refs ∧ Built b cap { l with rows := g r :: rs } t := by
  obtain ⟨w, w1, -⟩ := h.rows r (by rw [hrow]; exact List.mem_cons_self)
  have hc := h.count
  have hi : s.wl.words.length - 1 = r.ix := by omega
  obtain ⟨a1, a2, a3, a4, a5, a6⟩ := hf w
  refine ⟨_, modWord_last f h.dict (w := w) (by rw [hi]; exact w1), rfl, ?_⟩
  rw [hi]
  have := h.alter w1 a1 a2 a3 a4 a5 a6 (g := fun x => if x.ix = r.ix then g x else x)
    (fun x => by split; exact hg x; exact ⟨rfl, rfl⟩) (fun x hx => if_neg hx) (fun x hx he => by rw [if_pos he]; exact hv x w hx)
  rw [hrow, map_top (hrow ▸ h.order)] at this
  exact this

theorem Built.entry (h : Built b cap l s) (hb : Site b cap) (c : Ctx) (e : Entry) (hp : e.action ≠ .core .unmark)
    (hr : (addOne e l).here ≤ outlineRoom) :
    ∃ t, addEntry c e s = .ok ((), t) ∧ t.refs = s.refs ∧ Built b cap (addOne e l) t := by
  obtain ⟨t1, a1, a2, -, a3⟩ := h.add hb c (name := ascii e.name) hp rfl hr
  rw [addEntry, M.bind_ok a1]
  have i1 : ∃ t2, (if e.imm then immediate else pure ()) t1 = .ok ((), t2) ∧ t2.refs = t1.refs ∧
      Built b cap (addOne { e with co := false } l) t2 := by
    cases hi : e.imm with
    | false =>
      refine ⟨t1, rfl, rfl, ?_⟩
      simp only [addOne]
      exact a3
    | true =>
      obtain ⟨t2, b1, b2, b3⟩ := a3.flag rfl rfl (fun w => { w with isImmediate := true }) (fun r => { r with imm := true })
        (fun w => ⟨rfl, rfl, rfl, rfl, rfl, rfl⟩) (fun r => ⟨rfl, rfl⟩)
        (fun r w h => ⟨h.action, h.comp, rfl, h.co, h.dfa⟩)
      refine ⟨t2, b1, b2, ?_⟩
      simp only [addOne]
      exact b3
  obtain ⟨t2, b1, b2, b3⟩ := i1
  rw [M.bind_ok b1]
  cases hi : e.co with
  | false =>
    refine ⟨t2, rfl, b2.trans a2, ?_⟩
    have : ({ e with co := false } : Entry) = e := by rw [← hi]
    rw [this] at b3
    exact b3
  | true =>
    obtain ⟨t3, c1, c2, c3⟩ := b3.flag rfl rfl (fun w => { w with isCompileOnly := true }) (fun r => { r with co := true })
      (fun w => ⟨rfl, rfl, rfl, rfl, rfl, rfl⟩) (fun r => ⟨rfl, rfl⟩)
      (fun r w h => ⟨h.action, h.comp, h.imm, rfl, h.dfa⟩)
    refine ⟨t3, c1, c2.trans (b2.trans a2), ?_⟩
    simp only [addOne, hi]
    exact c3

theorem Built.table (hb : Site b cap) (c : Ctx) : ∀ (es : List Entry) {l : Outline} {s : VM}, Built b cap l s →
    tableOk es l = true → ∃ t, addTable c es s = .ok ((), t) ∧ t.refs = s.refs ∧ Built b cap (addWords es l) t
  | [], _, s, h, _ => ⟨s, rfl, rfl, h⟩
  | e :: es, l, s, h, ht => by
    simp only [tableOk, Bool.and_eq_true, decide_eq_true_eq, Nat.ble_eq] at ht
    obtain ⟨⟨h1, h2⟩, h3⟩ := ht
    obtain ⟨t, a1, a2, a3⟩ := h.entry hb c e h1 h2
    obtain ⟨u, b1, b2, b3⟩ := Built.table hb c es a3 h3
    exact ⟨u, by rw [addTable, M.bind_ok a1]; exact b1, b2.trans a2, b3⟩

theorem Built.findE (h : Built b cap l s) (c : Ctx) {name : String} {i : Nat}
    (hi : lookup (keyOf (nameCodes name) 0) l.rows = some i) : findE c name s = .ok (i, s) := by
  obtain ⟨r, h1, h2⟩ := h.dict.find h.inSpace c (ascii name)
  have h3 := h.names (ascii name)
  have := Newest.unique h2 h3
  rw [show lookup (keyOf (codesOf (ascii name)) 0) l.rows = some i from hi] at this
  subst this
  rw [Verif.findE, M.bind_ok h1]
  rfl

end

end Verif
