import Verif.Spec.Does
import Verif.Lemmas.LibraryCalls

/-!
# Running words made by defining words
-/

namespace Verif
open Spec Stack

section
variable {R : Refs} {wl : Wordlist} {lv lo hi n i : Nat} {k : Fin 5} {d : DataSpace} {s t : VM} {cfg : Cfg}
  {l r l' : List Cell} {m m' : DataSpace} {ix : String → Nat} {a p cr : Nat}

theorem exec_does {s1 : VM} (h : MadeBy s1 i a p) : execWord cfg (n + 1) i s1 =
    .ok ((), s1.put (s1.task.s.push (toCell a)) (s1.task.r.push (toCell (pc s1))) s1.task.f p i) := by
  obtain ⟨w, h1, h2, h3, h4⟩ := h
  rw [exec_word h1, h2]
  simp only [action, coreAction, xdoes, M.bind_apply, getSt_apply, VM.at_task, rPush_apply, sPush_apply]
  rw [wordAt_ok (w := w) (by simpa using h1)]
  simp [setIp, VM.at, VM.put, h3, h4, pc]

/-- Calling a word made by a defining word, whose code after `does>` is `q`. -/
theorem calling_does (g : Region d lo hi) {q : Stmt} {s' : VM} (hm : MadeBy (shape s l r m) i a p)
    (h1 : lo ≤ p) (h2 : (Stmt.seq q .exit).next p ≤ hi)
    (hat : (Stmt.seq q .exit).At R lv d p) (hl : l.length < capacity) (hr : r.length < capacity)
    (hl' : l'.length ≤ capacity)
    (hb : ∀ x, Going cfg n R lv wl lo hi k d q (shape s (toCell a :: l) (x :: r) m) (shape s' l' (x :: r) m')) :
    Calling cfg n R lv wl lo hi k d i (shape s l r m) (shape s' l' r m') := by
  intro hL
  refine ⟨?_, ((hb 0) hL.stacks).1.stacks⟩
  intro s1 hli hpc
  have hc : capacity = 64 := rfl
  have hd1 : s1.task.s.items = l := hli.data.trans (shape_data (by omega))
  have hr1 : s1.task.r.items = r := hli.ret.trans (shape_ret (by omega))
  have hp0 := push_holding s1.task.s (toCell a) (by rw [hd1]; omega)
  rw [hd1] at hp0
  have hp1 := push_holding s1.task.r (toCell (pc s1)) (by rw [hr1]; omega)
  rw [hr1] at hp1
  have hm1 : MadeBy s1 i a p := by
    obtain ⟨w, k1⟩ := hm
    exact ⟨w, by rw [hli.wl]; exact k1⟩
  have hl2 : Like (s1.put (s1.task.s.push (toCell a)) (s1.task.r.push (toCell (pc s1))) s1.task.f p i)
      (shape s (toCell a :: l) (toCell (pc s1) :: r) m) := by
    have := like_shape (m' := m) (by omega) (by omega) (l' := toCell a :: l) (by simp; omega) (r' := toCell (pc s1) :: r) (by simp; omega) hli
      (ds := s1.task.s.push (toCell a)) (rs := s1.task.r.push (toCell (pc s1))) (by rw [hp0]; exact .refl _)
      (by rw [hp1]; exact .refl _) p i
    have hds : s1.ds = m := hli.ds
    rw [← hds] at this ⊢
    exact this
  obtain ⟨b1, b2⟩ := hb (toCell (pc s1)) hL.stacks
  simp only [Stmt.next] at h2
  obtain ⟨t1, c1, c2, c3⟩ := b2 p _ hat.1 h1 (by omega) hl2 (by simp [pc, VM.put])
  obtain ⟨v, f1, f2, f3⟩ := run_exit (cfg := cfg) (n := n) c2 b1 g c3 (by have := q.le_next p; omega) h2 hat.2
    (shape_ret (by simp; omega))
  refine ⟨_, v, exec_does hm1, rfl, c1.trans f1, f2.trans (like_setRet hl' (by simp; omega) (by omega)), ?_⟩
  rw [f3, toNat_toCell hpc]

/-- Calling a word made by a defining word, when what its code does is given by the meaning of programs. -/
theorem call_does {W : Nat → VM → VM → Prop} (g : Region d lo hi)
    (hW : ∀ i s t, Loaded R lv wl lo hi k d s → W i s t → Acts cfg (n + 1) i s t ∧ Loaded R lv wl lo hi k d t)
    {q : Stmt} (hm : MadeBy s i a p) (h1 : lo ≤ p) (h2 : q.next p ≤ hi) (hq : q.At R lv d p)
    (hs : Loaded R lv wl lo hi k d s) (hl : (data s).length < capacity) (hr : (ret s).length < capacity)
    (hb : ∀ x : Cell, ∃ u l, Sem W (.stmt q) (setRet (setData s (toCell a :: data s)) (x :: ret s)) .exit u ∧
      ret u = x :: l ∧ Alike t (setRet u l)) :
    Acts cfg (n + 1) i s t ∧ Loaded R lv wl lo hi k d t := by
  refine ⟨?_, ?_⟩
  · intro s1 hli hpc
    have hd1 : s1.task.s.items = data s := hli.data
    have hr1 : s1.task.r.items = ret s := hli.ret
    simp only [capacity] at hr hl
    have hp0 := push_holding s1.task.s (toCell a) (by rw [hd1]; omega)
    rw [hd1] at hp0
    have hp1 := push_holding s1.task.r (toCell (pc s1)) (by rw [hr1]; omega)
    rw [hr1] at hp1
    have hm1 : MadeBy s1 i a p := by
      obtain ⟨w, k1⟩ := hm
      exact ⟨w, by rw [hli.wl]; exact k1⟩
    have hl2 : Like (s1.put (s1.task.s.push (toCell a)) (s1.task.r.push (toCell (pc s1))) s1.task.f p i)
        (setRet (setData s (toCell a :: data s)) (toCell (pc s1) :: ret s)) := by
      have := hli.update (ds := s1.task.s.push (toCell a)) (rs := s1.task.r.push (toCell (pc s1)))
        (by rw [hp0]; exact hli.s.hold _ (by simp; omega)) (by rw [hp1]; exact hli.r.hold _ (by simp; omega)) hli.f p i
      simpa [setRet, setData, VM.setTask_setTask, VM.put] using this
    obtain ⟨u, l, b1, b2, b3⟩ := hb (toCell (pc s1))
    obtain ⟨c1, t1, c2, c3, c4⟩ := simulate g hW b1 p _ _ ⟨hq, rfl⟩ h1 h2 (hs.congr rfl rfl rfl) hl2 (by simp [pc, VM.put])
    obtain ⟨v, f1, f2, f3⟩ := run_exit (cfg := cfg) (n := n) c3 c1 g rfl c4.1 c4.2.1 c4.2.2 b2
    refine ⟨_, v, exec_does hm1, rfl, c2.trans f1, f2.trans b3.like.symm, ?_⟩
    rw [f3, toNat_toCell hpc]
  · obtain ⟨u, l, b1, b2, b3⟩ := hb (toCell 0)
    obtain ⟨c1, -⟩ := simulate (n := n) (cfg := cfg) g hW b1 p _ _ ⟨hq, rfl⟩ h1 h2 (hs.congr rfl rfl rfl)
      ((Like.refl _).at p 0) (by simp [pc])
    exact (c1.setRet _).like b3.like


/-- The same change of words and memory on machines that are alike. -/
theorem Spec.Like.place {s t : VM} (h : Like s t) (m : DataSpace) (v : Wordlist) :
    Like { s with ds := m, wl := v } { t with ds := m, wl := v } := by
  obtain ⟨ip, wp, ds, rs, fs, h1, h2, h3, rfl⟩ := h
  exact ⟨ip, wp, ds, rs, fs, h1, h2, h3, rfl⟩

theorem doesRt_ok {c : Ctx} {w : Word} (hi : s.ds.start + s.ds.cap < 2 ^ 63) (hr : s.ds.here + 8 ≤ s.ds.limit)
    (hl : s.ds.len ≤ s.ds.cap)
    (hw : s.wl.words[s.wl.last]? = some w) (hp : s.task.st.ip + 8 < 2 ^ 64) :
    doesRt c s = .ok ((), doesDone s (s.task.st.ip + 8)) := by
  have e := emit_ok (oc := c.oc) (d := s.ds) ⟨hi, hl⟩ (toCell (s.task.st.ip + 8)) hr
  have hum : usizeMod = 2 ^ 64 := rfl
  simp only [doesRt, M.bind_apply, getSt_apply]
  rw [uadd_ok (by omega), liftE_ok]
  simp only [compileCell, dsOp_apply, e, getWl_apply, modWord, hw]
  simp only [doesDone, toCell, DataSpace.emit]
  congr 4
  refine List.ext_getElem? fun i => ?_
  rw [List.getElem?_set, List.getElem?_modify]
  have hlt := (List.getElem?_eq_some_iff.mp hw).1
  by_cases hi : s.wl.last = i
  · subst hi
    have hw' : s.wl.words[s.wl.last] = w := (List.getElem?_eq_some_iff.mp hw).2
    simp [hlt, hw']
  · simp only [if_neg hi]; cases s.wl.words[i]? <;> rfl

/-- The words of `wl` and their code are still there after `does>`, which changes a newer word. -/
theorem Spec.Loaded.does (h : Loaded R lv wl lo hi k d s) (hf : wl.words.length ≤ s.wl.last) (hh : hi ≤ s.ds.here)
    (hr : Runtime R lv wl) (p : Nat) : Loaded R lv wl lo hi k d (doesDone s p) := by
  have kept : SameCode wl (doesDone s p).wl := by
    intro i w hw
    obtain ⟨x, h1, h2⟩ := h.kept i w hw
    have hlt := (List.getElem?_eq_some_iff.mp hw).1
    refine ⟨x, ?_, h2⟩
    simp only [doesDone]
    have hne : s.wl.last ≠ i := by omega
    rw [List.getElem?_modify, h1]
    simp [hne]
  refine ⟨h.cur, h.start, h.cap, fun x h1 h2 => ?_, ?_, kept⟩
  · exact (DataSpace.setCell_bytes_out (.inl (by omega))).trans (h.code x h1 h2)
  · intro r hr'
    obtain ⟨w, h1, h2⟩ := hr r hr'
    obtain ⟨x, k1, k2, -⟩ := kept _ _ h1
    exact ⟨x, k1, k2.trans h2⟩

/-- Running `does>` and the `exit` after it. -/
theorem run_does {s1 : VM} {x : Nat} {w : Word} {z : Cell} {rs : List Cell} (g : Region d lo hi) (h : Loaded R lv wl lo hi k d s)
    (hR : Runtime R lv wl) (hl : Like s1 s) (hp : pc s1 = x) (h1 : lo ≤ x) (h2 : x + 16 ≤ hi) (hb : Builtin wl R.doesRt "_does")
    (c1 : CellIs d x R.doesRt) (c2 : CellIs d (x + 8) R.exit) (hw : s.wl.words[s.wl.last]? = some w)
    (hf : wl.words.length ≤ s.wl.last) (hh : hi ≤ s.ds.here) (hsp : InSpace s) (hroom : s.ds.here + 8 ≤ s.ds.limit)
    (hz : ret s = z :: rs) :
    ∃ v, Steps cfg (n + 1) s1 v ∧ Like v (setRet (doesDone s (x + 16)) rs) ∧ pc v = z.toNat ∧
      Loaded R lv wl lo hi k d v := by
  obtain ⟨w0, b1, b2⟩ := hb
  have b2 := prim_inj b2 (p := .core .doesRt) rfl
  obtain ⟨w1, b3, b4, -⟩ := h.kept _ _ b1
  have hli := h.like hl
  have e0 : execWord cfg (n + 1) R.doesRt (s1.at (x + 8) s1.task.st.wp) =
      .ok ((), doesDone (s1.at (x + 8) R.doesRt) (x + 16)) := by
    rw [exec_word (w := w1) (by rw [← b3]; exact congrArg (fun v : Wordlist => v.words[_]?) hl.wl), b4, b2]
    have e := doesRt_ok (c := ⟨cfg, execWord cfg n⟩) (s := s1.at (x + 8) R.doesRt) (w := w) (by
        have := hsp.1; rw [← hl.ds] at this; exact this)
      (by rw [← hl.ds] at hroom; exact hroom) (by have := hsp.2; rw [← hl.ds] at this; exact this)
      (by have e : (s1.at (x + 8) R.doesRt).wl = s.wl := hl.wl
          rw [e]; exact hw) (by have := g.small; have := g.upper; simp; omega)
    simp only [VM.at_task] at e
    simpa [action, coreAction, VM.at] using e
  have st : step cfg (n + 1) s1 = .ok (true, doesDone (s1.at (x + 8) R.doesRt) (x + 16)) := by
    rw [step_exec hli g hp h1 (by omega) c1, M.bind_apply, e0]; rfl
  have hld := h.does (k := k) hf hh hR (x + 16)
  have hl2 : Like (doesDone (s1.at (x + 8) R.doesRt) (x + 16)) (doesDone s (x + 16)) := by
    have hq := (hl.at (x + 8) R.doesRt)
    have e1 : (s1.at (x + 8) R.doesRt).ds = s.ds := hl.ds
    have e2 : (s1.at (x + 8) R.doesRt).wl = s.wl := hl.wl
    unfold doesDone
    rw [e1, e2]
    exact hq.place _ _
  obtain ⟨v, f1, f2, f3⟩ := run_exit (cfg := cfg) (n := n) hl2 hld g (a := x + 8) (by simp [pc, doesDone, VM.task, VM.at, VM.setTask])
    (by omega) (by omega) c2 (x := z) (l := rs) hz
  exact ⟨v, (Steps.one st).trans f1, f2, f3, (hld.setRet _).like f2⟩

theorem redefined {c : Ctx} {b : List Byte} {tok : List Char} {f : Option Nat} {s1 s2 : VM} {u : Unit}
    (e1 : find c b s = .ok (f, s1)) (e2 : redefining f.isSome tok s1 = .ok (u, s2)) :
    ∃ o, s2 = { s with outbuf := o } := by
  unfold find at e1
  dsimp only at e1
  split at e1
  · cases e1
    unfold redefining at e2
    split at e2
    · cases e2; exact ⟨_, rfl⟩
    · cases e2; exact ⟨_, rfl⟩
  · cases e1

/-- What `define` does when a name follows in the input. -/
theorem define_named {c : Ctx} {p : Prim} {tok : List Char} {u : Unit} (hi : InSpace s) (hn : Naming s tok)
    (h : define c p s = .ok (u, t)) : Added p (utf8 (tok.map lowerChar)) s t ∧ t.cur = s.cur ∧
      t.refs = s.refs ∧ ∃ n, t.task = atPosition s.task n := by
  obtain ⟨pre, rest, old, toks, hr, ht, htk⟩ := hn
  cases htk with
  | @word bs _ rest _ hb hne hnb he hts =>
  have hsc : scanWord (bs ++ (tok ++ rest)) 0 [] = (tok, byteLen (bs ++ tok)) := by
    rw [scanWord_blank _ _ _ hb, scanWord_word tok rest _ [] hnb he (.inl hne)]
    simp
  have hp := parseWord_reading hr ht (fun _ => hsc) (by intro h; simp at h; exact absurd h.2.1 hne)
  unfold define at h
  rw [M.bind_ok hp] at h
  obtain ⟨tok0, s2, e2, h2⟩ := M.bind_inv h
  obtain ⟨ht, rfl⟩ := takeToken_inv e2
  simp only [VM.setTkn, Option.some.injEq] at ht
  subst ht
  clear h
  obtain ⟨f, s3, e3, h⟩ := M.bind_inv h2
  obtain ⟨_, s4, e4, h⟩ := M.bind_inv h
  have p4 := redefined e3 e4
  split at h
  · rename_i h0
    simp at h0
    exact absurd h0 hne
  · obtain ⟨nfa, s5, e5, h⟩ := M.bind_inv h
    obtain ⟨_, s6, e6, h⟩ := M.bind_inv h
    obtain ⟨dfa, s7, e7, h⟩ := M.bind_inv h
    obtain ⟨_, s8, e8, h⟩ := M.bind_inv h
    obtain ⟨out, p4⟩ := p4
    have hi4 : InSpace s4 := by rw [p4]; exact hi
    have key := add_inv (c := c) (p := p) (name := utf8 (tok.map lowerChar)) (s := s4) (s' := s8) (u := ())
      hi4 (by rw [M.bind_ok e5, M.bind_ok e6, M.bind_ok e7]; exact e8)
    cases h
    obtain ⟨a1, a2, a3, a4, a5, a6, a7, a8, a9⟩ := key
    have h8 : ∃ dd v, s8 = { s4 with ds := dd, wl := v } := by
      simp only [compileStrM] at e5
      split at e5
      · cases e5
        rw [dsOp_apply] at e6
        split at e6
        · cases e6; cases e7; cases e8; exact ⟨_, _, rfl⟩
        · cases e6
      · cases e5
    obtain ⟨dd, v, rfl⟩ := h8
    subst p4
    exact ⟨⟨a1, a2, a3, a4, a5, a6, a7, a8, a9⟩, rfl, rfl, _, VM.task_setTask s _⟩


/-- The first step of a defining word: a new word. -/
theorem step_create {s u : VM} {cr x : Nat} {tok : List Char} (g : Region d lo hi) (h : Loaded R lv wl lo hi k d s)
    (hR : Runtime R lv wl) (hp : pc s = x) (h1 : lo ≤ x) (h2 : x + 8 ≤ hi) (hb : Builtin wl cr "create") (c1 : CellIs d x cr)
    (hi' : InSpace s) (hh : hi ≤ s.ds.here) (hn : Naming s tok) (e : step cfg (n + 1) s = .ok (true, u)) :
    Added (.core .pVar) (utf8 (tok.map lowerChar)) s u ∧ u.cur = s.cur ∧ (∃ ix, u.task = atPosition (s.at (x + 8) cr).task ix) ∧
      u.refs = s.refs ∧ Loaded R lv wl lo hi k d u := by
  obtain ⟨w0, b1, b2⟩ := hb
  have b2 := prim_inj b2 (p := .core .create) rfl
  obtain ⟨w1, b3, b4, -⟩ := h.kept _ _ b1
  rw [step_exec h g hp h1 h2 c1] at e
  obtain ⟨_, s2, e1, e2⟩ := M.bind_inv e
  cases e2
  rw [exec_word (s := s.at (x + 8) s.task.st.wp) (w := w1) b3, b4, b2] at e1
  have e1 : define ⟨cfg, execWord cfg n⟩ (.core .pVar) (s.at (x + 8) cr) = .ok ((), u) := by
    simpa [action, coreAction, create, VM.at] using e1
  have hn' : Naming (s.at (x + 8) cr) tok := by
    obtain ⟨pre, rest, old, toks, k1, k2, k3⟩ := hn
    refine ⟨pre, rest, old, toks, ⟨?_, ?_, k1.bounded⟩, k2, k3⟩
    · rw [VM.at_task]; exact k1.buffer
    · rw [VM.at_task]; exact k1.position
  obtain ⟨f1, f2, f3, f4⟩ := define_named (s := s.at (x + 8) cr) hi' hn' e1
  obtain ⟨a1, a2, a3, a4, a5, a6, a7, a8, a9⟩ := f1
  have hadd : Added (.core .pVar) (utf8 (tok.map lowerChar)) s u := ⟨a1, a2, a3, a4, a5, a6, a7, a8, a9⟩
  have kept : SameCode wl u.wl := by
    intro i w hw
    obtain ⟨y, h1, h2⟩ := h.kept i w hw
    refine ⟨y, ?_, h2⟩
    rw [hadd.wl]
    exact (List.getElem?_append_left (List.getElem?_eq_some_iff.mp h1).1).trans h1
  refine ⟨hadd, f2, f4, f3, ⟨f2.trans h.cur, hadd.start.trans h.start, hadd.cap.trans h.cap, fun z z1 z2 => ?_, ?_, kept⟩⟩
  · rw [hadd.below z (by omega)]; exact h.code z z1 z2
  · intro r hr'
    obtain ⟨w, h1, h2⟩ := hR r hr'
    obtain ⟨x, k1, k2, -⟩ := kept _ _ h1
    exact ⟨x, k1, k2.trans h2⟩

theorem doing_comma {v : Cell} (hb : Builtin wl i ",") (hl : l.length < capacity) (hr : r.length ≤ capacity)
    (hd : SoundSpace m) (h : m.here + 8 ≤ m.limit) (hh : hi ≤ m.here) :
    Doing cfg n R lv wl lo hi k d i (shape s (v :: l) r m) (shape s l r (m.emit v)) := by
  obtain ⟨w, hw, hp⟩ := hb
  have hp' := prim_inj hp (p := .core .comma) rfl
  simp only [capacity] at hl
  refine doing_shape hw (by simp [capacity]; omega) hr (by simp [capacity]; omega) hr
    ⟨rfl, rfl, fun x h1 h2 => DataSpace.emit_bytes _ _ (.inl (by omega))⟩
    (fun u v' k1 k2 k3 _ _ _ _ _ => ?_)
  have hr1 := items_eq_iff.mp k1
  have e : u.task.s.pop.1 = v := hr1.pop_fst
  refine ⟨u.task.s.pop.2, u.task.r, ?_, by rw [pop_holding k1]; exact .refl _, ?_⟩
  · rw [hp']
    have := emit_ok (oc := cfg.overflowChecks) (d := m) ⟨hd.small, hd.inside⟩ v h
    simp only [action, coreAction, comma, M.bind_apply, sPop_apply, e, compileCell, dsOp_apply, VM.ds_setTask, k3, Ctx.oc]
    rw [this]
  · rw [← k2, holding_self]; exact .refl _

/-- What a defined word does does not depend on how deep the calls are. -/
theorem defined_depth {q : Prim} (h : q ∈ calledActions) (e e' : Nat → M Unit) : action ⟨cfg, e⟩ q = action ⟨cfg, e'⟩ q := by
  simp only [calledActions, List.mem_cons, List.not_mem_nil, or_false] at h
  rcases h with rfl | rfl | rfl | rfl | rfl | rfl <;>
    simp only [action, coreAction, floatAction, nest, pVar, pConst, xdoes, pFconst]

/-- `execute` calls the word on the stack. -/
theorem calling_execute {v : Cell} {w : Word} (hb : Builtin wl i "execute") (hw : s.wl.words[v.toNat]? = some w)
    (ha : w.action ∈ calledActions) (hl : l.length < capacity) (hr : r.length ≤ capacity)
    (hc : Calling cfg (n + 1) R lv wl lo hi k d v.toNat (shape s l r m) t) :
    Calling cfg (n + 1) R lv wl lo hi k d i (shape s (v :: l) r m) t := by
  intro hL
  obtain ⟨h1, h2⟩ := hc hL.stacks
  refine ⟨fun s1 hli hpc => ?_, h2⟩
  obtain ⟨w0, b1, b2⟩ := hb
  have b2 := prim_inj b2 (p := .core .execute) rfl
  obtain ⟨w1, b3, b4, -⟩ := hL.kept _ _ b1
  have hc' : capacity = 64 := rfl
  have hd : s1.task.s.items = v :: l := hli.data.trans (shape_data (by simp; omega))
  have hr1 : s1.task.r.items = r := hli.ret.trans (shape_ret hr)
  have hwl : s1.wl = s.wl := hli.wl
  have hl2 : Like (s1.put s1.task.s.pop.2 s1.task.r s1.task.f (pc s1) i) (shape s l r m) := by
    have := like_shape (m' := m) (by simp; omega) hr (l' := l) (by omega) (r' := r) hr hli
      (ds := s1.task.s.pop.2) (rs := s1.task.r) (by rw [pop_holding hd]; exact .refl _)
      (by rw [← hr1, holding_self]; exact .refl _) (pc s1) i
    have hds : s1.ds = m := hli.ds
    rw [← hds] at this ⊢
    exact this
  obtain ⟨s2, t1, f1, f2, f3, f4, f5⟩ := h1 _ hl2 (by simpa [pc, VM.put] using hpc)
  refine ⟨s2, t1, ?_, ?_, f3, f4, ?_⟩
  · rw [exec_word (w := w1) (by rw [hwl]; exact b3), b4, b2]
    rw [exec_word (w := w) (by rw [← hw, ← hwl]; rfl)] at f1
    rw [defined_depth ha _ (execWord cfg n)] at f1
    simp only [action, coreAction, execute, M.bind_apply, sPop_apply, VM.at_task]
    have e0 : (s1.at s1.task.st.ip i).setTask { s1.task with
        st := { s1.task.st with wp := i }, s := s1.task.s.pop.2 } = s1.put s1.task.s.pop.2 s1.task.r s1.task.f (pc s1) i := by
      simp only [VM.at, VM.put, VM.setTask_setTask, pc]
    rw [e0, show s1.task.s.pop.1 = v from (items_eq_iff.mp hd).pop_fst,
      exec_word (w := w) (by rw [← hw, ← hwl]; rfl)]
    exact f1
  · rw [f2]; rfl
  · rw [f5]; simp [pc, VM.put]

/-- The definers are still there. -/
theorem Spec.HasDefiners.later (h : HasDefiners lv lo hi ix s) (hL : Loaded s.refs lv s.wl lo hi k s.ds t)
    (hr : t.refs = s.refs) : HasDefiners lv lo hi ix t := by
  have g := h.equipped.library.region
  have hb : ∀ {i name}, Builtin s.wl i name → Builtin t.wl i name := by
    rintro i name ⟨w, h1, h2⟩
    obtain ⟨x, k1, k2, -⟩ := hL.kept _ _ h1
    exact ⟨x, k1, by rw [k2]; exact h2⟩
  have hc : ∀ {defs}, Coded s.refs lv s.wl lo hi s.ds ix defs → Coded s.refs lv t.wl lo hi t.ds ix defs := by
    intro defs hcd e he
    obtain ⟨w, h1, h2, h3, h4, h5⟩ := hcd e he
    obtain ⟨x, k1, k2, k3⟩ := hL.kept _ _ h1
    refine ⟨x, k1, k2.trans h2, by rw [k3]; exact h3, by rw [k3]; exact h4, ?_⟩
    rw [k3]
    exact h5.congr fun z z1 z2 => hL.code z (by omega) (by omega)
  refine ⟨⟨by rw [hr]; exact hL.words, ⟨⟨?_, ?_, ?_⟩, fun name hn => hb (h.equipped.library.uses name hn), ?_⟩⟩,
    fun name hn => hb (h.uses name hn), by rw [hr]; exact h.does, ?_⟩
  · rw [hL.start]; exact g.lower
  · rw [hL.start, hL.cap]; exact g.upper
  · rw [hL.start, hL.cap]; exact g.small
  · rw [hr]; exact hc h.equipped.library.coded
  · rw [hr]; exact hc h.coded

/-- How a defining word begins: its code is called and the new word is there. -/
theorem definer_begins {s0 u : VM} {p q : Stmt} {D : Nat} {w : Word} {tok : List Char} (g : Region d lo hi) (h : Loaded R lv wl lo hi k d s)
    (hR : Runtime R lv wl) (hb : Builtin wl cr "create") (hw : wl.words[D]? = some w) (ha : w.action = .core .nest)
    (h1 : lo ≤ w.dfa) (h2 : (Stmt.seq (definer R cr p q) .exit).next w.dfa ≤ hi)
    (hat : (Stmt.seq (definer R cr p q) .exit).At R lv d w.dfa) (hi' : InSpace s) (hh : hi ≤ s.ds.here)
    (hn : Naming s tok) (hr : (ret s).length < capacity) (e0 : execWord cfg (n + 1) D s = .ok ((), s0))
    (e1 : step cfg (n + 1) s0 = .ok (true, u)) :
    Added (.core .pVar) (utf8 (tok.map lowerChar)) s u ∧ u.refs = s.refs ∧ Loaded R lv wl lo hi k d u ∧
      pc u = w.dfa + 8 ∧ data u = data s ∧ ret u = toCell (pc s) :: ret s := by
  obtain ⟨w1, b3, b4, b5⟩ := h.kept _ _ hw
  have hs0 : s0 = s.put s.task.s (s.task.r.push (toCell (pc s))) s.task.f w.dfa D := by
    rw [exec_word b3, b4, ha] at e0
    simp only [action, coreAction, nest, M.bind_apply, getSt_apply, VM.at_task, rPush_apply] at e0
    rw [wordAt_ok (w := w1) (by simpa using b3)] at e0
    simp [setIp, VM.at, b5] at e0
    rw [← e0]
    simp [VM.put, pc]
  have hp := push_holding s.task.r (toCell (pc s)) (by simp only [ret, capacity] at hr; omega)
  have hl0 : Loaded R lv wl lo hi k d s0 := by rw [hs0]; exact h.congr rfl rfl rfl
  have hlen := (Stmt.seq q .exit).le_next (p.next (w.dfa + 8) + 8 + 8)
  have hlen2 := p.le_next (w.dfa + 8)
  simp only [definer, Stmt.next] at h2 hlen
  have hn0 : Naming s0 tok := by
    obtain ⟨pre, rest, old, toks, k1, k2, k3⟩ := hn
    refine ⟨pre, rest, old, toks, ⟨?_, ?_, k1.bounded⟩, by rw [hs0]; exact k2, k3⟩
    · rw [hs0, VM.put, VM.task_setTask]; exact k1.buffer
    · rw [hs0, VM.put, VM.task_setTask]; exact k1.position
  obtain ⟨f1, f2, ⟨j, f3⟩, f4, f5⟩ := step_create (s := s0) g hl0 hR (x := w.dfa) (by simp [hs0, pc, VM.put]) h1
    (by omega) hb hat.1.1 (by rw [hs0]; exact hi') (by rw [hs0]; exact hh) hn0 e1
  obtain ⟨a1, a2, a3, a4, a5, a6, a7, a8, a9⟩ := f1
  rw [hs0] at a1 a2 a4 a5 a6 a7 a8 a9 f4
  refine ⟨⟨a1, a2, a3, a4, a5, a6, a7, a8, a9⟩, f4, f5, ?_, ?_, ?_⟩
  · rw [pc, f3, VM.at_task]; rfl
  · rw [data, f3, VM.at_task, hs0, VM.put]; simp [atPosition, data]
  · rw [ret, f3, VM.at_task, hs0, VM.put]
    simp only [atPosition, VM.task_setTask]
    rw [hp, holding_items _ (by simp only [ret, capacity] at hr; simp; omega)]
    rfl

/-- How a defining word ends, when the code before `does>` has the given effect. -/
theorem definer_ends {u : VM} {p q : Stmt} {w w2 : Word} {z : Cell} {rs : List Cell} (g : Region d lo hi)
    (h : Loaded R lv wl lo hi k d u) (hR : Runtime R lv wl) (hb : Builtin wl R.doesRt "_does")
    (h1 : lo ≤ w.dfa) (h2 : (Stmt.seq (definer R cr p q) .exit).next w.dfa ≤ hi)
    (hat : (Stmt.seq (definer R cr p q) .exit).At R lv d w.dfa) (hpc : pc u = w.dfa + 8)
    (hp : Going cfg n R lv wl lo hi k d p u t) (hw : t.wl.words[t.wl.last]? = some w2)
    (hf : wl.words.length ≤ t.wl.last) (hh : hi ≤ t.ds.here) (hsp : InSpace t) (hroom : t.ds.here + 8 ≤ t.ds.limit)
    (hz : ret t = z :: rs) :
    ∃ v, Steps cfg (n + 1) u v ∧ Like v (setRet (doesDone t (afterDoes p w.dfa)) rs) ∧ pc v = z.toNat ∧
      Loaded R lv wl lo hi k d v := by
  obtain ⟨⟨-, c1, c2, c3, -⟩, -⟩ := hat
  have hlen := (Stmt.seq q .exit).le_next (p.next (w.dfa + 8) + 8 + 8)
  have hlen2 := p.le_next (w.dfa + 8)
  simp only [definer, Stmt.next] at h2 hlen
  obtain ⟨e1, e2⟩ := hp h
  simp only [Stmt.next] at c1 c2 c3
  obtain ⟨t1, f1, f2, f3⟩ := e2 (w.dfa + 8) u c1 (by omega) (by omega) (Like.refl _) hpc
  obtain ⟨v, v1, v2, v3, v4⟩ := run_does (cfg := cfg) (n := n) g e1 hR f2 f3 (by omega) (by omega) hb c2 c3 hw hf hh hsp hroom hz
  exact ⟨v, f1.trans v1, v2, v3, v4⟩

end
end Verif
