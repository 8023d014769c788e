import Verif.Lemmas.StandRun

/-!
# Definitions in the text
-/

namespace Verif
open Spec Stack

/-! ### Layout relative to the start of memory -/

theorem roundUp8_shift {b : Nat} (hb : b % 8 = 0) (a : Nat) : roundUp8 (b + a) = b + roundUp8 a := by
  unfold roundUp8; omega

mutual
theorem Spec.Stmt.next_shift {b : Nat} (hb : b % 8 = 0) : ∀ (p : Stmt) (a : Nat), p.next (b + a) = b + p.next a
  | .skip, _ => rfl
  | .seq p q, a => by simp only [Stmt.next]; rw [p.next_shift hb, q.next_shift hb]
  | .word _, a => by simp only [Stmt.next]; omega
  | .lit _, a => by simp only [Stmt.next]; omega
  | .flt _, a => by simp only [Stmt.next]; rw [Nat.add_assoc, roundUp8_shift hb, Nat.add_assoc]
  | .str _ bs, a => by simp only [Stmt.next]; rw [Nat.add_assoc, Nat.add_assoc, roundUp8_shift hb, Nat.add_assoc]
  | .exit, a => by simp only [Stmt.next]; omega
  | .leave, a => by simp only [Stmt.next]; omega
  | .ifThen p, a => by simp only [Stmt.next]; rw [Nat.add_assoc, p.next_shift hb]
  | .ifElse p q, a => by simp only [Stmt.next]; rw [Nat.add_assoc, p.next_shift hb, Nat.add_assoc, q.next_shift hb]
  | .untilLoop p, a => by simp only [Stmt.next]; rw [p.next_shift hb]; omega
  | .againLoop p, a => by simp only [Stmt.next]; rw [p.next_shift hb]; omega
  | .whileLoop p q, a => by simp only [Stmt.next]; rw [p.next_shift hb, Nat.add_assoc, q.next_shift hb]; omega
  | .loop _ _ _ p, a => by simp only [Stmt.next]; rw [Nat.add_assoc, p.next_shift hb]; omega
  | .case r, a => by simp only [Stmt.next]; rw [r.next_shift hb]

theorem Spec.Arms.next_shift {b : Nat} (hb : b % 8 = 0) : ∀ (r : Arms) (a : Nat), r.next (b + a) = b + r.next a
  | .default p, a => by simp only [Arms.next]; rw [p.next_shift hb]; omega
  | .arm t q r, a => by
    simp only [Arms.next]; rw [t.next_shift hb, Nat.add_assoc, q.next_shift hb, Nat.add_assoc, r.next_shift hb]
end

/-! ### Floats -/

/-- The float that is marked is `z`. -/
def Item.fill (z : F64) : Item → Item
  | .flt _ => .flt z
  | i => i

def fillStmt (z : F64) : Stmt → Stmt
  | .seq p q => .seq (fillStmt z p) (fillStmt z q)
  | .flt _ => .flt z
  | p => p

theorem fill_flat {R : Refs} {lv : Nat} {z : F64} : ∀ (p : Stmt), flat p = true →
    (fillStmt z p).items R lv = (p.items R lv).map (Item.fill z) ∧ (∀ a, (fillStmt z p).next a = p.next a) ∧
    (fillStmt z p).calls = p.calls ∧ (fillStmt z p).leavesOk false = true ∧ (fillStmt z p).height = 0
  | .skip, _ => ⟨rfl, fun _ => rfl, rfl, rfl, rfl⟩
  | .word _, _ => ⟨rfl, fun _ => rfl, rfl, rfl, rfl⟩
  | .lit _, _ => ⟨rfl, fun _ => rfl, rfl, rfl, rfl⟩
  | .flt _, _ => ⟨rfl, fun _ => rfl, rfl, rfl, rfl⟩
  | .seq p q, h => by
    simp only [flat, Bool.and_eq_true] at h
    obtain ⟨a1, a2, a3, a4, a5⟩ := fill_flat (R := R) (lv := lv) (z := z) p h.1
    obtain ⟨b1, b2, b3, b4, b5⟩ := fill_flat (R := R) (lv := lv) (z := z) q h.2
    refine ⟨?_, ?_, ?_, ?_, ?_⟩
    · simp only [fillStmt, Stmt.items, a1, b1, List.map_append]
    · intro a; simp only [fillStmt, Stmt.next, a2, b2]
    · simp only [fillStmt, Stmt.calls, a3, b3]
    · simp only [fillStmt, Stmt.leavesOk, a4, b4]; rfl
    · simp only [fillStmt, Stmt.height, a5, b5]; rfl

theorem fill_none {z : F64} : ∀ (is : List Item), is.any Item.isFlt = false → is.map (Item.fill z) = is
  | [], _ => rfl
  | i :: is, h => by
    simp only [List.any_cons, Bool.or_eq_false_iff] at h
    rw [List.map_cons, fill_none is h.2]
    cases i <;> first | rfl | cases h.1

section
variable {G : Ground} {l l' l1 : Outline} {s t : VM} {cfg : Cfg} {depth : Nat}

theorem defAt_mem {i : Nat} {d : Def} : ∀ ds, defAt i ds = some d → d ∈ ds ∧ d.ix = i := by
  intro ds
  induction ds with
  | nil => exact fun h => nomatch h
  | cons a as ih =>
    intro h
    simp only [defAt] at h
    split at h
    · rename_i hb
      cases h
      exact ⟨List.mem_cons_self, Nat.eq_of_beq_eq_true hb⟩
    · obtain ⟨a1, a2⟩ := ih h
      exact ⟨List.mem_cons_of_mem _ a1, a2⟩

/-- What the outline says of a quoting word is right. -/
theorem quote_sound (g : G.Ok) (h : Stand G l s) (hl : l.stack.length ≤ 60) {p : Prim} {text rest : List Nat} {is : List Item}
    (ha : Ascii text) (hq : quote G.refs l p text = some (is, rest)) {z : F64} :
    (Quoted s p (spelt text) (is.map (Item.fill z)) (spelt rest) ∨ ∃ q, p = .core q ∧ is = [.imm q] ∧ rest = text) ∧ Ascii rest := by
  have hd : (data s).length < capacity := by
    simp only [data, h.items, List.length_map, capacity]; omega
  have hmono : ∀ i, Plain ⟨G.words, fun _ => 0, fun _ => 0, 0⟩ i → Plain s.wl i := by
    rintro i ⟨w, h1, h2⟩
    exact ⟨w, h.old g h1, h2⟩
  obtain ⟨a1, a2⟩ := ascii_readTok ha
  unfold quote at hq
  split at hq
  · cases hq
    obtain ⟨taken, found, hk⟩ := skipPast_spec (d := 41) (by decide) ha
    exact ⟨.inl (.paren hd hk), skipPast_suffix 41 ha⟩
  · cases hq
    obtain ⟨taken, found, hk⟩ := skipPast_spec (d := 10) (by decide) ha
    exact ⟨.inl (.backslash hd hk), skipPast_suffix 10 ha⟩
  · simp only at hq
    split at hq
    · cases hq
    · rename_i c t e
      cases hq
      have hr := readTok_reads ha e
      rw [e] at a1
      have hc : (Char.ofNat c).toNat = c := ofNat_toNat c a1.head
      refine ⟨.inl ?_, a2⟩
      have := Quoted.char (s := s) hd hr
      rw [hc] at this
      exact this
  · simp only at hq
    split at hq
    · cases hq
    · rename_i c t e
      simp only [Option.bind_eq_bind, Option.bind_eq_some_iff] at hq
      obtain ⟨i, h1, h2⟩ := hq
      cases h2
      have hr := readTok_reads ha e
      rw [e] at a1
      have hn := h.name a1
      rw [h1] at hn
      exact ⟨.inl (.tick hr hn), a2⟩
  · simp only at hq
    split at hq
    · cases hq
    · rename_i c t e
      simp only [Option.bind_eq_bind, Option.bind_eq_some_iff] at hq
      obtain ⟨i, h1, h2⟩ := hq
      cases h2
      have hr := readTok_reads ha e
      rw [e] at a1
      have hn := h.name a1
      rw [h1] at hn
      have := Quoted.postpone hr hn (by rw [h.refs]; exact hmono _ g.postpone)
      rw [h.refs] at this
      exact ⟨.inl this, a2⟩
  · split at hq
    · cases hq
    rename_i c r
    split at hq
    case isFalse => cases hq
    rename_i hb
    simp only [Bool.and_eq_true] at hb
    simp only [Option.bind_eq_bind, Option.bind_eq_some_iff] at hq
    obtain ⟨⟨cs, rest'⟩, h1, h2⟩ := hq
    cases h2
    obtain ⟨t, k1, k2, k3⟩ := upToQuote_spec [] h1
    rw [List.reverse_nil, List.nil_append] at k1
    subst k1
    rw [k2] at ha
    have hc : Ascii cs := fun x hx => ha x (by simp [hx])
    have hrest : Ascii rest' := fun x hx => ha x (by simp [hx])
    refine ⟨.inl ?_, hrest⟩
    have e : spelt (c :: r) = Char.ofNat c :: (spelt cs ++ '"' :: spelt rest') := by
      rw [k2]
      show Char.ofNat c :: spelt (cs ++ 34 :: rest') = _
      rw [spelt_append]; rfl
    have hpl : Plain s.wl s.refs.type := by
      rw [h.refs]
      have := hb.2
      simp only [plainRows] at this
      split at this
      case h_2 => cases this
      rename_i x hx
      obtain ⟨w, w1, w2, -⟩ := h.row hx
      simp only [Bool.and_true, decide_eq_true_eq] at this
      exact ⟨w, w1, w2.comp.trans this⟩
    have := Quoted.dotQuote (s := s) (cs := spelt cs) (text := spelt rest') ((ofNat_blank c ha.head).1 hb.1) (by
      intro hm
      obtain ⟨x, hx, hx'⟩ := List.mem_map.1 hm
      exact k3 (ofNat_quote x (hc x hx) hx' ▸ hx)) hpl
    rw [h.refs, utf8_spelt hc] at this
    rw [e]
    exact this
  · cases hq
    have := Quoted.does (s := s) (text := spelt text) hd (by rw [h.refs]; exact hmono _ g.does) (by rw [h.refs]; exact hmono _ g.compiler.exit)
    rw [h.refs] at this
    exact ⟨.inl this, ha⟩
  all_goals first
    | (cases hq; exact ⟨.inr ⟨_, rfl, rfl, rfl⟩, ha⟩)
    | cases hq

/-- What the outline says of the body of a definition is right. -/
theorem body_sound (g : G.Ok) (h : Stand G l s) (hl : l.stack.length ≤ 60) (hr : (ret s).length < capacity) :
    ∀ (n : Nat) {acc items : List Item} {text rest : List Nat}, Ascii text → bodyItems G.refs l n acc text = some (items, rest) →
    ∃ is t3 c tl i w, items = acc.reverse ++ is ∧ Prose cfg.fops s (spelt text) (is.map (Item.fill (zeroFloat cfg.fops))) (spelt t3) ∧
      Ascii rest ∧ Reads (spelt t3) (spelt (c :: tl)) (spelt rest) ∧ Newest s (utf8 (spelt (c :: tl))) (some i) ∧
      s.wl.words[i]? = some w ∧ w.action = .core .semicolon ∧ w.isImmediate = true
  | 0, _, _, _, _, _, hb => by cases hb
  | n + 1, acc, items, text, rest, ha, hb => by
    obtain ⟨a1, a2⟩ := ascii_readTok ha
    simp only [bodyItems] at hb
    split at hb
    · cases hb
    rename_i c tl e
    have hR := readTok_reads ha e
    rw [e] at a1
    have hn := h.name a1
    split at hb
    · rename_i i hi
      rw [hi] at hn
      split at hb
      · cases hb
      rename_i r hrow
      obtain ⟨w, w1, w2, -⟩ := h.row hrow
      split at hb
      · rename_i himm
        have hwi : w.isImmediate = true := w2.imm.trans himm
        split at hb
        · rename_i hact
          cases hb
          exact ⟨[], text, c, tl, i, w, by simp, .done, a2, hR, hn, w1, w2.action.trans hact, hwi⟩
        split at hb
        · rename_i hact
          split at hb
          · rename_i d1 d2 hd
            obtain ⟨m1, m2⟩ := defAt_mem _ hd
            obtain ⟨⟨x, x1, x2, x3⟩, x4, x5⟩ := h.code _ m1
            replace m2 : d1 = i := m2
            replace x1 : s.wl.words[d1]? = some x := x1
            rw [m2, w1] at x1
            cases x1
            obtain ⟨ex, e1, e2⟩ := (h.compiler g).runtime (s.refs.exit, .exit) (by simp [roles])
            obtain ⟨is, t3, c', tl', i', w', q1, q2, q3⟩ := body_sound g h hl hr n a2 hb
            have hx : CellIs s.ds w.dfa s.refs.exit := by rw [x3]; exact x4.2
            have hx5 : w.dfa + 8 ≤ G.start + l.top := by rw [x3]; exact x5
            refine ⟨is, t3, c', tl', i', w', q1, .quiet hR hn w1 hwi (w2.action.trans hact) hx ?_ ?_ e1 e2 hr q2, q3⟩
            · rw [h.start, x3]; omega
            · have := h.top
              rw [h.here]; omega
          · cases hb
        · split at hb
          · rename_i is1 rest1 hq
            obtain ⟨hq, har⟩ := quote_sound g h hl a2 hq (z := zeroFloat cfg.fops)
            obtain ⟨is, t3, c', tl', i', w', q1, q2, q3⟩ := body_sound g h hl hr n har hb
            refine ⟨is1 ++ is, t3, c', tl', i', w', by rw [q1]; simp, ?_, q3⟩
            rw [List.map_append]
            rcases hq with hq | ⟨q, hq1, rfl, rfl⟩
            · exact .quoted hR hn w1 hwi (by rw [w2.action]; exact hq) q2
            · exact .token hR (.imm hn w1 hwi (w2.action.trans hq1)) q2
          · cases hb
      · rename_i himm
        obtain ⟨is, t3, c', tl', i', w', q1, q2, q3⟩ := body_sound g h hl hr n a2 hb
        refine ⟨.word i :: is, t3, c', tl', i', w', by rw [q1]; simp, ?_, q3⟩
        exact .token hR (.word hn w1 (by rw [w2.imm]; simpa using himm)) q2
    · rename_i hi
      rw [hi] at hn
      split at hb
      · rename_i v hv
        obtain ⟨is, t3, c', tl', i', w', q1, q2, q3⟩ := body_sound g h hl hr n a2 hb
        refine ⟨.lit (BitVec.ofNat 64 v) :: is, t3, c', tl', i', w', by rw [q1]; simp, ?_, q3⟩
        exact .token hR (.lit hn (by rw [h.base]; exact numberOf_token a1 hv)) q2
      · split at hb
        · rename_i hz
          obtain ⟨is, t3, c', tl', i', w', q1, q2, q3⟩ := body_sound g h hl hr n a2 hb
          refine ⟨.flt 0 :: is, t3, c', tl', i', w', by rw [q1]; simp, ?_, q3⟩
          rw [hz] at hR hn
          exact .token hR (.flt hn (by rw [h.base]; exact zero_not_integer) (zero_float _)) q2
        · cases hb

theorem plainRows_plain (h : Stand G l s) : ∀ (is : List Nat), plainRows l.rows is = true → ∀ i ∈ is, Plain s.wl i
  | [], _, _, hi => nomatch hi
  | a :: as, hp, i, hi => by
    simp only [plainRows] at hp
    split at hp
    · rename_i r hr
      simp only [Bool.and_eq_true, decide_eq_true_eq] at hp
      rcases List.mem_cons.1 hi with rfl | hi
      · obtain ⟨w, w1, w2, -⟩ := h.row hr
        exact ⟨w, w1, w2.comp.trans hp.1⟩
      · exact plainRows_plain h as hp.2 i hi
    · cases hp

/-- The word list has a new colon definition at its end. -/
theorem Stand.defined (h : Stand G l s) (g : G.Ok) {pre : List Char} {tok rest : List Nat} {p q : Stmt} {d e : Nat}
    (ha : Ascii tok) (har : Ascii rest) (hL : Listening t) (hrd : Reading t.task pre (spelt rest)) (hd : d = roundUp8 (l.here + 8 + tok.length))
    (D : Defining s (utf8 ((spelt tok).map lowerChar)) G.lv q (G.start + d) t) (he : e = p.next d + 8)
    (hnew : lookup (keyOf tok 0) l.rows = none) (hq : ∀ a, q.next a = p.next a) (h2 : e ≤ outlineRoom) {defs : List Def}
    (hdefs : ∀ x ∈ defs, x ∈ l.defs ∨ q = p ∧ x = ⟨l.count, d, p⟩) :
    Stand G { l with
      rows := ⟨keyOf tok 0, l.count, .core .nest, .word, false, false, d⟩ :: l.rows
      count := l.count + 1, here := e, top := e, defs := defs, text := rest } t := by
  have hhere := h.here
  have htop := h.top
  have hlow := h.low
  have hcount := h.count
  have hstart : t.ds.start = G.start := D.named.start.trans h.start
  have hd' : l.here + 8 ≤ d := by
    have := roundUp8_le (l.here + 8 + tok.length)
    omega
  have hal : G.start % 8 = 0 := by have := g.aligned; omega
  have hnx : q.next (G.start + d) = G.start + p.next d := by rw [hq, p.next_shift hal]
  have hle := p.le_next d
  have hold : ∀ {i : Nat} {x : Word}, s.wl.words[i]? = some x → t.wl.words[i]? = some x := colonList_old D.wl
  have hnw := colonList_new D.wl
  rw [hcount] at hnw
  have hlen : t.wl.words.length = l.count + 1 := by rw [D.wl]; simp [colonList, Wordlist.push, hcount]
  have hmany := h.many g
  refine ⟨hL.interpreting, hL.noError, hL.token, hL.dict, hL.space, hstart, D.cap.trans h.cap, ?_, D.refs.trans h.refs,
    ?_, hL.data, ?_, hL.ret, hL.floats, hL.control, hL.balanced, hL.labels, hlen, ?_, ?_, ?_, ?_, ?_, ?_, ?_, Nat.le_refl _, h2, ?_,
    har, ⟨pre, hrd⟩, ⟨D.cur.trans h.steady.cur, (D.output (h.newName ha hnew)).trans h.steady.output, D.source.trans h.steady.source,
      D.stdout.trans h.steady.stdout, by rw [D.host]; exact h.steady.calls, by rw [D.inbuf]; exact h.steady.line⟩⟩
  · rw [D.here, hnx]; show _ = G.start + e; omega
  · have hb := h.base
    simp only [baseOf, DataSpace.baseAddr] at hb ⊢
    rw [DataSpace.cellAt_congr (d := s.ds), D.named.start]
    · exact hb
    · intro x _ hx
      exact D.named.below x (by omega)
  · rw [D.stacks.1.items]; exact h.items
  · intro i hi
    have : i < s.wl.words.length := by omega
    rw [← h.kept i hi, List.getElem?_eq_getElem this]
    exact hold (List.getElem?_eq_getElem this)
  · intro r hr
    rcases List.mem_cons.1 hr with rfl | hr
    · exact ⟨_, hnw, rfl, rfl, rfl, rfl, rfl⟩
    · obtain ⟨x, a1, a2⟩ := h.rows r hr
      exact ⟨x, hold a1, a2⟩
  · rw [List.pairwise_cons]
    exact ⟨fun r hr => h.low_rows hr, h.order⟩
  · intro nm
    have hk : SameName (utf8 ((spelt tok).map lowerChar)) nm ↔ keyOf tok 0 = keyOf (codesOf nm) 0 := by
      rw [sameName_key, key_lower ha]
    obtain ⟨k1, k2⟩ := D.named.newest_shown h.dict (by simp only [outlineBase] at hmany; omega) D.wl nm
    simp only [lookup]
    split
    · rename_i e
      have := k1 (hk.2 (Nat.eq_of_beq_eq_true e))
      rw [hcount] at this
      exact this
    · rename_i e
      exact (k2 (fun e' => e (by rw [hk.1 e']; exact Nat.beq_refl _)) _).2 (h.names nm)
  · intro x hx
    rcases hdefs x hx with hx | ⟨rfl, rfl⟩
    · obtain ⟨⟨y, a1, a2, a3⟩, a4, a5⟩ := h.code x hx
      refine ⟨⟨y, hold a1, a2, a3⟩, ?_, by show _ ≤ G.start + e; omega⟩
      rw [D.refs]
      refine a4.congr fun z _ hz => D.named.below z ?_
      simp only [Stmt.next] at hz
      omega
    · refine ⟨⟨_, hnw, rfl, rfl⟩, by rw [D.refs]; exact D.code, ?_⟩
      show _ ≤ G.start + e
      rw [Stmt.place_next, hnx]; omega
  · intro f hf
    obtain ⟨a1, a2⟩ := h.facts f hf
    refine ⟨?_, by show _ ≤ e; omega⟩
    rw [DataSpace.cellAt_congr (d := s.ds)]
    · exact a1
    · intro x _ hx
      exact D.named.below x (by omega)
  · show 16 ≤ e; omega
  · intro i x hx
    show x.dfa + reserve x ≤ G.start + e
    rcases colonList_get D.wl hx with hx | ⟨rfl, rfl⟩
    · have a1 := h.bodies i x hx
      omega
    · show G.start + d + 0 ≤ _
      omega

/-- A definition in the text. -/
theorem define_turn (g : G.Ok) (h : Stand G l s) (hW : Waits s) {tok : List Nat} (ht : takeTok l = some (tok, l1)) {i : Nat}
    (hi : lookup (keyOf tok 0) l.rows = some i) {r : Row} (hr : rowAt i l.rows = some r) (hco : r.co = false)
    (hc : r.action = .core .colon) {specs : List (Nat × Stmt)} (hs : defineStep G.refs G.lv specs l1 = some l') :
    ∃ s', Leads cfg (depth + 2) s s' ∧ Stand G l' s' ∧ Waits s' := by
  obtain ⟨t1, t2, rfl⟩ := takeTok_some ht
  obtain ⟨b1, b2⟩ := ascii_readTok h.ascii
  rw [← t1] at b1
  have hne : ∀ {tk : List Nat}, tk ≠ [] → ∃ c t, tk = c :: t := by
    intro tk h
    cases tk with
    | nil => exact absurd rfl h
    | cons c t => exact ⟨c, t, rfl⟩
  obtain ⟨c1, tl1, e1⟩ := hne t2
  have hR1 := readTok_reads h.ascii (t1.symm.trans e1)
  obtain ⟨w, w1, w2, -⟩ := h.row hr
  have hn := h.name b1
  rw [hi, e1] at hn
  simp only [defineStep, Option.bind_eq_bind, Option.bind_eq_some_iff] at hs
  obtain ⟨⟨nm, l2⟩, h1, ⟨items, rest⟩, h2, p, h3, h4⟩ := hs
  simp only at h2 h3 h4
  obtain ⟨u1, u2, rfl⟩ := takeTok_some h1
  simp only at u1 h2
  obtain ⟨c2, tl2, e2⟩ := hne u2
  have hR2 := readTok_reads b2 (u1.symm.trans e2)
  obtain ⟨d1, d2⟩ := ascii_readTok b2
  rw [← u1] at d1
  split at h4
  case isFalse => cases h4
  rename_i hcond
  simp only [Bool.and_eq_true, decide_eq_true_eq, Nat.ble_eq] at hcond
  obtain ⟨⟨⟨⟨⟨⟨k1, k2⟩, k3⟩, k4⟩, k5⟩, k6⟩, k7⟩ := hcond
  rw [Option.isNone_iff_eq_none] at k7
  have hbe : bodyItems G.refs { l with text := (readTok l.text).2 } 300 [] (readTok (readTok l.text).2).2 =
    bodyItems G.refs l 300 [] (readTok (readTok l.text).2).2 := by
      have key : ∀ n acc text, bodyItems G.refs { l with text := (readTok l.text).2 } n acc text = bodyItems G.refs l n acc text := by
        intro n
        induction n with
        | zero => intros; rfl
        | succ n ih => intro acc text; simp only [bodyItems, ih, quote]
      exact key _ _ _
  rw [hbe] at h2
  obtain ⟨is, t3, c', tl', i', w', q1, q2, q3, q4, q5, q6, q7, q8⟩ := body_sound (cfg := cfg) g h k6 (by rw [hW.2]; decide) 300 d2 h2
  simp only [List.reverse_nil, List.nil_append] at q1
  subst q1
  rw [← e1] at hR1 hn
  rw [← e2] at hR2
  obtain ⟨pre, hrd⟩ := h.reading
  have hal : G.start % 8 = 0 := by have := g.aligned; omega
  have hdfa : G.start + roundUp8 (l.here + 8 + nm.length) = roundUp8 (s.ds.here + 8 + (utf8 ((spelt nm).map lowerChar)).length) := by
    rw [h.here, length_lower d1, ← roundUp8_shift hal]
    simp only [Nat.add_assoc]
  have hsz := h.words_length
  have hroom := g.room
  have finish : ∀ q : Stmt, q.items G.refs G.lv = items.map (Item.fill (zeroFloat cfg.fops)) → (∀ a, q.next a = p.next a) →
      q.calls = p.calls → q.leavesOk false = true → q.height ≤ 64 → ∀ defs : List Def,
      (∀ x ∈ defs, x ∈ l.defs ∨ q = p ∧ x = ⟨l.count, roundUp8 (l.here + 8 + nm.length), p⟩) →
      ∃ s', Leads cfg (depth + 2) s s' ∧ Stand G { l with
        rows := ⟨keyOf nm 0, l.count, .core .nest, .word, false, false, roundUp8 (l.here + 8 + nm.length)⟩ :: l.rows
        count := l.count + 1
        here := p.next (roundUp8 (l.here + 8 + nm.length)) + 8
        top := p.next (roundUp8 (l.here + 8 + nm.length)) + 8
        defs := defs, text := rest } s' ∧ Waits s' := by
    intro q f1 f2 f3 f4 f5 defs f6
    obtain ⟨t, pre', g1, g2, g3, g4⟩ := definition_body (cfg := cfg) (depth := depth) (h.listening hW.1) (h.compiler g) (by omega) hrd hR1 hR2 q4 hn w1
      ((w2.action).trans hc) (w2.co.trans hco) q5 q6 q7 q8 (p := q) (by
        rw [h.refs, f1]
        exact prose_body (by rw [h.refs]; exact g.flit) q2) hdfa ⟨by rw [f3]; exact plainRows_plain h _ k2, f4, f5, by
          rw [f2, p.next_shift hal, h.limit]; omega⟩
    have hS := h.defined g (e := p.next (roundUp8 (l.here + 8 + nm.length)) + 8) d1 q3 g1 g2 rfl g3 rfl k7 f2 k5 f6
    exact ⟨t, g4, hS, hW.keep h hS g3.idle (by simp only [ret]; rw [g3.stacks.2.1.items])⟩
  split at h4
  · split at h4
    · rename_i hflt hflat
      cases h4
      obtain ⟨f1, f2, f3, f4, f5⟩ := fill_flat (R := G.refs) (lv := G.lv) (z := zeroFloat cfg.fops) p hflat
      exact finish (fillStmt (zeroFloat cfg.fops) p) (by rw [f1, k1]) f2 f3 f4 (by omega) l.defs (fun x hx => .inl hx)
    · cases h4
  · rename_i hflt
    cases h4
    refine finish p (by rw [k1, fill_none _ (by simpa using hflt)]) (fun _ => rfl) rfl k3 k4 _ (fun x hx => ?_)
    rcases List.mem_cons.1 hx with rfl | hx
    · exact .inr ⟨rfl, rfl⟩
    · exact .inl hx

/-- One token of the text. -/
theorem token_turn (g : G.Ok) (h : Stand G l s) (hW : Waits s) {specs : List (Nat × Stmt)}
    (hs : tokenStep G.refs G.lv specs l = some l') : ∃ s', Leads cfg (depth + 2) s s' ∧ Stand G l' s' ∧ Waits s' := by
  simp only [tokenStep, Option.bind_eq_bind, Option.bind_eq_some_iff] at hs
  obtain ⟨⟨tok, l1⟩, h1, h2⟩ := hs
  simp only at h2
  split at h2
  · rename_i i hi
    simp only [Option.bind_eq_some_iff] at h2
    obtain ⟨r, hr, h2⟩ := h2
    split at h2
    · cases h2
    rename_i hco
    replace hco : r.co = false := by simpa using hco
    split at h2
    · rename_i hc
      exact define_turn g h hW h1 hi hr hco hc h2
    split at h2
    · rename_i hc
      simp only [Option.bind_eq_some_iff] at h2
      obtain ⟨d, h3, h4⟩ := h2
      split at h4
      · rename_i hst
        exact word_turn g h hW h1 hi hr hco (.inl ⟨hc, d, h3, hst, h4⟩)
      · cases h4
    · exact word_turn g h hW h1 hi hr hco (.inr h2)
  · rename_i hi
    simp only [Option.bind_eq_some_iff] at h2
    obtain ⟨v, h3, h4⟩ := h2
    exact number_turn h hW h1 hi h3 h4

theorem Leads.refl (s : VM) : Leads cfg depth s s := ⟨0, 0, fun _ => rfl⟩

/-- Text up to `marker`. -/
theorem load_sound (g : G.Ok) {specs : List (Nat × Stmt)} : ∀ (n : Nat) {l l' : Outline} {s : VM}, Stand G l s → Waits s →
    loadText G.refs G.lv specs n l = some l' → ∃ s', Leads cfg (depth + 2) s s' ∧ Stand G l' s' ∧ Waits s'
  | 0, _, _, _, _, _, h => by cases h
  | n + 1, l, l', s, h, hW, hl => by
    simp only [loadText] at hl
    split at hl
    · cases hl
      exact ⟨s, Leads.refl s, h, hW⟩
    · split at hl
      · rename_i l2 hs
        obtain ⟨s1, k1, k2, k3⟩ := token_turn (cfg := cfg) (depth := depth) g h hW hs
        obtain ⟨s2, m1, m2, m3⟩ := load_sound g n k2 k3 hl
        exact ⟨s2, Spec.Leads.trans k1 m1, m2, m3⟩
      · cases hl

end

end Verif
