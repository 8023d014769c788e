import Verif.Lemmas.Run
import Verif.Lemmas.Machine
import Verif.Lemmas.Alike
import Verif.Lemmas.Count
import Verif.Lemmas.Accept

/-!
# Properties C24-C29: compiling and running control structures
-/

namespace Verif
open Spec Stack

/-! ## C24 -/

/-- `D` with one more definition. -/
def Spec.plus (D : Nat → Option Stmt) (n : Nat) (p : Stmt) : Nat → Option Stmt := fun i => if i = n then some p else D i

/-- C24. A text `: name body ;` whose body spells a structured program is compiled: the interpreter ends up
waiting for more input, with one more word, found under the given name (up to the case of ASCII letters),
whose code is the program; every other name and the code of all earlier definitions are as before. -/
theorem C24_compile {cfg : Cfg} {depth lv : Nat} {s : VM} (hL : Listening s) (hC : Compiler s.refs lv s.wl)
    (hsz : s.wl.words.length < 2 ^ 64) (h1 : 1 ≤ s.wl.words.length) (hfl : s.refs.flit ≠ 0)
    {pre text name rest : List Char} {p : Stmt} (hin : Reading s.task pre text)
    (hdef : Definition cfg.fops s text name (p.items s.refs lv) rest) {dfa : Nat}
    (hdfa : dfa = roundUp8 (s.ds.here + 8 + (utf8 (name.map lowerChar)).length)) (hp : Compilable s p dfa) :
    ∃ t pre', Leads cfg (depth + 2) s t ∧ Listening t ∧ Reading t.task pre' rest ∧ Compiler t.refs lv t.wl ∧
      t.refs = s.refs ∧ t.wl.words.length = s.wl.words.length + 1 ∧
      (∀ nm, SameName (utf8 (name.map lowerChar)) nm → Newest t nm (some s.wl.words.length)) ∧
      (∀ nm, ¬ SameName (utf8 (name.map lowerChar)) nm → ∀ r, Newest t nm r ↔ Newest s nm r) ∧
      (∃ w, t.wl.words[s.wl.words.length]? = some w ∧ w.compSem = .word ∧ w.isImmediate = false ∧
        w.isCompileOnly = false) ∧
      (∀ (i : Nat) w, s.wl.words[i]? = some w → t.wl.words[i]? = some w) ∧
      (∀ x, x < s.ds.here → t.ds.bytes x = s.ds.bytes x) ∧ t.ds.here = p.next dfa + 8 ∧
      t.ds.start = s.ds.start ∧ t.ds.cap = s.ds.cap ∧
      data t = data s ∧ ret t = ret s ∧ floats t = floats s ∧
      ∀ lo D, lo ≤ s.ds.here → Defined s.refs lv s.wl lo s.ds.here s.ds D →
        Defined s.refs lv t.wl lo t.ds.here t.ds (plus D s.wl.words.length (p.place dfa)) := by
  obtain ⟨t, pre', h2, h3, h4, h5⟩ := definition_compiles (depth := depth) hL hC hsz hfl hin hdef hdfa hp
  have hw := h4.wl
  have hnew := colonList_new hw
  have hfit := h4.named.fits
  have hlen : t.wl.words.length = s.wl.words.length + 1 := by rw [hw]; simp [colonList, Wordlist.push]
  refine ⟨t, pre', h5, h2, h3, ?_, h4.refs, hlen, ?_, ?_, ⟨_, hnew, rfl, rfl, rfl⟩, fun i w h => colonList_old hw h,
    h4.named.below, h4.here, h4.named.start, h4.cap, ?_, ?_, ?_, ?_⟩
  · rw [h4.refs]; exact hC.mono (fun i w h => colonList_old hw h) (by omega)
  · exact fun nm => (h4.named.newest_shown hL.dict h1 hw nm).1
  · exact fun nm => (h4.named.newest_shown hL.dict h1 hw nm).2
  · exact h4.stacks.1.items
  · exact h4.stacks.2.1.items
  · simp only [floats, h4.stacks.2.2]
  · intro lo D hlo hD i q hq
    have hle := p.le_next dfa
    by_cases hi : i = s.wl.words.length
    · subst hi
      simp only [plus, if_true, Option.some.injEq] at hq
      subst hq
      refine ⟨_, hnew, rfl, ?_, ?_, h4.code⟩
      · show lo ≤ dfa; omega
      · rw [h4.here]
        simp only [Stmt.next, Stmt.place_next]
        exact Nat.le_refl _
    · simp only [plus, if_neg hi] at hq
      obtain ⟨w, e1, e2, e3, e4, e5⟩ := hD i q hq
      exact ⟨w, colonList_old hw e1, e2, e3, by rw [h4.here]; omega,
        e5.congr fun n _ hn => h4.named.below n (by omega)⟩

/-- C24. Typing the name of a word whose program leads from `s` to `t` makes the machine like `t`: it has
the data, return and float stacks of `t`, its memory, its dictionary and everything else of it, except for
places on the stacks that hold nothing. Then it waits for more input. Programs are colon definitions, which
may call each other up to any depth the return stack allows, and built-in words. -/
theorem C24_run {cfg : Cfg} {depth lv lo : Nat} {s : VM} (hL : Listening s) (hC : Compiler s.refs lv s.wl)
    (hlo : s.ds.start ≤ lo) {D : Nat → Option Stmt} (hD : Defined s.refs lv s.wl lo s.ds.here s.ds D)
    {pre text tok rest : List Char} (hin : Reading s.task pre text) (hr : Reads text tok rest) {i : Nat} {w : Word}
    (hn : Newest s (utf8 tok) (some i)) (hw : s.wl.words[i]? = some w) (hco : w.isCompileOnly = false)
    {m n : Nat} {t : VM} (hlen : n + byteLen rest = byteLen (pre ++ text))
    (hc : Calls D (Basic s.wl lo s.ds.here) m i (received s tok n) t) :
    ∃ t1 pre', Leads cfg (depth + 1) s t1 ∧ Like t1 t ∧ Reading t1.task pre' rest ∧ pre' ++ rest = pre ++ text ∧
      (Dict t → Listening t1) :=
  call_runs hL hC hlo hD hin hr hn hw hco hlen hc

/-- C24. Whatever the words do that a program calls: if `W` describes them (calling word `i` on a machine like `s`
leads to one like `t` whenever `W i s t`), then the code of a structured program does what the program does. At the
end the instruction pointer is after the code, or at the `EXIT`, the `LEAVE` or the call where the program is. -/
theorem C24_simulate {R : Refs} {wl : Wordlist} {lv lo hi depth : Nat} {k : Fin 5} {d : DataSpace} {cfg : Cfg}
    (g : Region d lo hi) {W : Nat → VM → VM → Prop}
    (hW : ∀ i s t, Loaded R lv wl lo hi k d s → W i s t →
      Acts cfg (depth + 1) i s t ∧ Loaded R lv wl lo hi k d t)
    {p : Stmt} {s t s1 : VM} {o : Out} (hs : Sem W (.stmt p) s o t) {a : Nat} (hat : p.At R lv d a) (h1 : lo ≤ a)
    (h2 : p.next a ≤ hi) (hL : Loaded R lv wl lo hi k d s) (hl : Like s1 s) (hpc : pc s1 = a) :
    ∃ t1, Steps cfg (depth + 1) s1 t1 ∧ Like t1 t ∧
      match o with
      | .normal => pc t1 = p.next a
      | .exit => lo ≤ pc t1 ∧ pc t1 + 8 ≤ hi ∧ CellIs d (pc t1) R.exit
      | .leave => lo ≤ pc t1 ∧ pc t1 + 8 ≤ hi ∧ CellIs d (pc t1) lv
      | .call i => lo ≤ pc t1 ∧ pc t1 + 8 ≤ hi ∧ CellIs d (pc t1) i := by
  obtain ⟨_, t1, e1, e2, e3⟩ := simulate g hW hs a _ s1 ⟨hat, rfl⟩ h1 h2 hL hl hpc
  refine ⟨t1, e1, e2, ?_⟩
  cases o <;> exact e3

/-- On the machine as built, a text that defines a word and then names it runs it. Used in the examples. -/
theorem desk_runs {l ys : List Cell} (hl : l.length ≤ 64) (hy : ys.length ≤ 64) {text : String} {p : Stmt}
    {name t1 t2 t3 t4 : List Char} (hlen : byteLen text.toList < 2 ^ 63) (hr1 : Reads text.toList ":".toList t1)
    (hr2 : Reads t1 name t2) (hw : Written demoCfg.fops (desk l text) t2 (p.items (desk l text).refs 15) t3)
    (hr3 : Reads t3 ";".toList t4) (hr4 : Reads t4 name []) (hname : name.map lowerChar = name)
    (hshort : (utf8 name).length ≤ 100) (hcalls : ∀ i ∈ p.calls, Plain (desk l text).wl i) (hlv : p.leavesOk false = true)
    (hh : p.height ≤ 64) (hroom : ∀ a, a ≤ 20200 → p.next a + 8 ≤ 66560)
    (hrun : ∀ wl lo hi a x v, (∀ (i : Nat) w, (desk l text).wl.words[i]? = some w → wl.words[i]? = some w) → data v = l →
      ret v = [] → ∃ u m, Sem (Basic wl lo hi) (.stmt (.seq (p.place a) .exit)) (setRet v (x :: ret v)) .exit u ∧
        ret u = x :: m ∧ Alike (setData v ys) (setRet u m)) :
    ∃ t, Leads demoCfg 5 (desk l text) t ∧ Listening t ∧ data t = ys := by
  obtain ⟨n1, n2, n3, n4, n5, n6, n7, n8, n9⟩ := desk_numbers l text
  have hs := @desk_word l text
  obtain ⟨c1, wc, c2, c3, c4, c5, c6⟩ := hs (List.mem_of_getElem? (i := 0) rfl)
  obtain ⟨s1, ws, s2, s3, s4, s5, s6⟩ := hs (List.mem_of_getElem? (i := 1) rfl)
  have hL := desk_listening hl text
  have hC := desk_compiler l text
  have hR := desk_reading l hlen
  have hdat := desk_data hl text
  generalize desk l text = s at *
  have hlim : s.ds.limit = 66560 := by simp only [DataSpace.limit, n4, n5]
  obtain ⟨t, pre', h1, h2, h3, h4, h5, h6, h7, h8, h9, h10, h11, h12, h13, h14, h15, h16, h17, h18⟩ :=
    C24_compile (cfg := demoCfg) (depth := 3) (p := p) (name := name) (rest := t4) hL hC (by omega) (by omega) n2 hR
      ⟨":".toList, ";".toList, t1, t2, t3, 16, 17, wc, ws, hr1, hr2, hw, hr3, c1, c2, c3, c5, s1, s2, s3, s4⟩ rfl
      ⟨hcalls, hlv, hh, by
        rw [hname, hlim]
        refine hroom _ ?_
        simp only [roundUp8]; omega⟩
  have hn := h7 (utf8 name) ⟨by rw [hname], fun i a b h1 h2 => by
    rw [hname, h2] at h1; cases h1; exact .inl rfl⟩
  obtain ⟨w, w1, w2, w3, w4⟩ := h9
  have hD := h18 s.ds.here (fun _ => none) (Nat.le_refl _) (fun _ _ h => by cases h)
  obtain ⟨u, pre2, r1, r2, r3, r4, r5⟩ := C24_run (cfg := demoCfg) (depth := 4) (lo := s.ds.here) h2 h4
    (by rw [h13]; exact Nat.le_add_right _ _) (by rw [h5]; exact hD) (tok := name) (rest := []) h3 hr4 hn w1 w4 (m := 1)
    (n := byteLen (pre' ++ t4)) (t := setData (received t name (byteLen (pre' ++ t4))) ys)
    (by simp [byteLen]) (by
      have hdr : data (received t name (byteLen (pre' ++ t4))) = l := by rw [received_data, h15, hdat]
      have hrr : ret (received t name (byteLen (pre' ++ t4))) = [] := by rw [received_ret, h16, n7]
      generalize received t name (byteLen (pre' ++ t4)) = v at *
      exact .inr ⟨_, by rw [plus, if_pos rfl], by rw [hrr]; decide, fun x => hrun _ _ _ _ x v h10 hdr hrr⟩)
  refine ⟨u, h1.trans r1, r5 (h2.dict.congr rfl rfl), ?_⟩
  rw [show data u = _ from r2.data]
  exact data_setData (by omega)

/-- Non-vacuity: on the machine as built, with any number on the stack, this text defines a word and runs it,
which squares the number. -/
example (x : Cell) : ∃ t, Leads demoCfg 5 (desk [x] ": sq dup * ; sq") t ∧ Listening t ∧ data t = [x * x] := by
  have hs := @desk_word [x] ": sq dup * ; sq"
  obtain ⟨d1, wd, d2, d3, d4, d5, d6⟩ := hs (List.mem_of_getElem? (i := 2) rfl)
  obtain ⟨m1, wm, m2, m3, m4, m5, m6⟩ := hs (List.mem_of_getElem? (i := 3) rfl)
  refine desk_runs (p := .seq (.word 18) (.word 19)) (name := "sq".toList) (t1 := " sq dup * ; sq".toList)
    (t2 := " dup * ; sq".toList) (t3 := " ; sq".toList) (t4 := " sq".toList) (by simp) (by simp) (by decide)
    ⟨[], by decide, by decide, by decide, by decide, by decide⟩
    ⟨[' '], by decide, by decide, by decide, by decide, by decide⟩
    (.token (bs := [' ']) (t := "dup".toList) (text := " * ; sq".toList) (by decide) (by decide) (by decide) (by decide)
      (.word d1 d2 d4)
      (.token (bs := [' ']) (t := "*".toList) (text := " ; sq".toList) (by decide) (by decide) (by decide) (by decide)
        (.word m1 m2 m4) .done))
    ⟨[' '], by decide, by decide, by decide, by decide, by decide⟩
    ⟨[' '], by decide, by decide, by decide, by decide, by decide⟩ (by decide) (by decide)
    (by simp only [Stmt.calls]; simp; exact ⟨⟨_, d2, d6⟩, ⟨_, m2, m6⟩⟩) rfl (by decide)
    (by intro a ha; simp only [Stmt.next]; omega) ?_
  intro wl lo hi a y v h10 hdr hrr
  refine ⟨setData (setData (setRet v [y]) [x, x]) [x * x], [], ?_, ?_, ?_⟩
  · rw [hrr]
    refine .seq (.seq (.word (t := setData (setRet v [y]) [x, x]) ?_) (.word ?_)) .exit
    · have e : data (setRet v [y]) = [x] := by rw [setRet_data, hdr]
      exact .effect (h10 18 _ d2) (List.mem_of_getElem? (i := 1) rfl) (by rw [d3]; decide +kernel) (by rw [e])
        (by rw [e]; simp [capacity]) (by simp [capacity])
    · have e : data (setData (setRet v [y]) [x, x]) = [x, x] := data_setData (by simp)
      exact .effect (h10 19 _ m2) (List.mem_of_getElem? (i := 20) rfl) (by rw [m3]; decide +kernel)
        (by rw [e]; simp [binary, wrap, BitVec.ofInt_mul]) (by rw [e]; simp [capacity]) (by simp [capacity])
  · rw [setData_ret, setData_ret, ret_setRet (by simp)]
  · rw [setRet_setData, setRet_setData]
    refine .trans ?_ (alike_data _ (by simp [capacity]) (by simp)).symm
    refine .setData ?_ (by simp)
    have := alike_ret v (l := [y]) (m := []) (by simp [capacity]) (by simp)
    rw [← hrr, setRet_self, hrr] at this
    exact this.symm

/-! ## C25 and C26 -/

section
variable {R : Refs} {wl : Wordlist} {lv lo hi depth : Nat} {k : Fin 5} {d : DataSpace} {cfg : Cfg}
  {D : Nat → Option Stmt} {m : Nat}

/-- C25. The compiled code of `DO p LOOP`, with limit `lim` and start `start` on the stack, runs `p` exactly
`turns lim start` times, with the index `start`, `start + 1` and so on, unless `p` leaves the loop before;
then the machine is after the loop, without the loop parameters. The same goes for `?DO` if limit and start
differ. -/
theorem C25_do (g : Region d lo hi) (hD : Defined R lv wl lo hi d D) {ask left : Bool} {tok a n : Nat} {p : Stmt}
    {s s1 u : VM} {start lim : Cell} {l : List Cell} (hs : Loaded R lv wl lo hi k d s) (hl : Like s1 s) (hpc : pc s1 = a)
    (hat : (Stmt.loop ask false tok p).At R lv d a) (h1 : lo ≤ a) (h2 : (Stmt.loop ask false tok p).next a ≤ hi)
    (hd : data s = start :: lim :: l) (hne : ask = true → start ≠ lim) (hr : (ret s).length + 2 < capacity)
    (hrounds : Rounds (Calls D (Basic wl lo hi) m) tok p lim left n start
      (setRet (setData s l) (params lim start ++ BitVec.ofNat 64 tok :: ret s)) u)
    (hn : if left then n < turns lim start else n = turns lim start) :
    ∃ t1, Steps cfg (depth + 1) s1 t1 ∧ Like t1 u ∧ pc t1 = (Stmt.loop ask false tok p).next a :=
  (simulate g (calls_act g hD (fun _ _ _ h3 h4 => basic_acts g h3 h4) m)
    (.loop hd hne hr (rounds_turn hrounds hn)) a _ s1 ⟨hat, rfl⟩ h1 h2 hs hl hpc).2

/-- C25. This is the only way in which such a loop can end. -/
theorem C25_turns {W : Nat → VM → VM → Prop} {tok : Nat} {p : Stmt} {lim idx : Cell} {s u : VM} :
    Sem W (.turn false tok p lim idx) s .normal u ↔
      Rounds W tok p lim false (turns lim idx) idx s u ∨ ∃ n, n < turns lim idx ∧ Rounds W tok p lim true n idx s u :=
  ⟨fun h => turn_rounds h rfl rfl, fun h => h.elim (fun h => rounds_turn h rfl) fun ⟨_, h1, h2⟩ => rounds_turn h2 h1⟩

/-- C25. `?DO` skips the loop if limit and start are equal. -/
theorem C25_none (g : Region d lo hi) {plus : Bool} {tok a : Nat} {p : Stmt} {s s1 : VM} {x : Cell} {l : List Cell}
    (hs : Loaded R lv wl lo hi k d s) (hl : Like s1 s) (hpc : pc s1 = a)
    (hat : (Stmt.loop true plus tok p).At R lv d a) (h1 : lo ≤ a) (h2 : (Stmt.loop true plus tok p).next a ≤ hi)
    (hd : data s = x :: x :: l) :
    ∃ t1, Steps cfg (depth + 1) s1 t1 ∧ Like t1 (setData s l) ∧ pc t1 = (Stmt.loop true plus tok p).next a :=
  (simulate (W := fun _ _ _ => False) g (fun _ _ _ _ h => h.elim) (.loopNone hd) a _ s1 ⟨hat, rfl⟩ h1 h2 hs hl hpc).2

/-- C25. In a round with index `idx` the word `I` puts `idx` on the stack. -/
theorem C25_index (g : Region d lo hi) {s : VM} {i : Nat} {w : Word} {lim idx : Cell} {l : List Cell}
    (hs : Loaded R lv wl lo hi k d s) (hw : wl.words[i]? = some w) (hp : primOf "i" = some w.action)
    (hr : ret s = params lim idx ++ l) (hd : (data s).length < capacity) :
    Acts cfg (depth + 1) i s (setData s (idx :: data s)) :=
  (basic_acts g hs (.index hw hp hr hd)).1

/-- C25. How many rounds that is: the distance from the start up to the limit, going round at 2^64. -/
theorem C25_count (lim start : Cell) :
    (start.toInt < lim.toInt → (turns lim start : Int) = lim.toInt - start.toInt) ∧
    (lim.toInt < start.toInt → (turns lim start : Int) = 2 ^ 64 + lim.toInt - start.toInt) ∧
    (start = lim → turns lim start = 2 ^ 64) := by
  have := lim.toInt_lt; have := start.toInt_lt; have := lim.le_toInt; have := start.le_toInt
  refine ⟨fun h => ?_, fun h => ?_, fun h => by rw [turns, if_pos h]⟩
  · rw [turns, if_neg (by intro e; subst e; omega)]
    show ((((_ : Int) % _).toNat : Nat) : Int) = _
    omega
  · rw [turns, if_neg (by intro e; subst e; omega)]
    show ((((_ : Int) % _).toNat : Nat) : Int) = _
    omega

/-- C26. The compiled code of `+LOOP` with `x` on the stack goes on after the loop if stepping from the index by
`x` crosses the line between `lim - 1` and `lim`, and goes back to the body with `x` added to the index if it
does not. -/
theorem C26_plus_loop (g : Region d lo hi) {a b : Nat} {s s1 : VM} {lim idx tok x : Cell} {l xs : List Cell}
    (hs : Loaded R lv wl lo hi k d s) (hl : Like s1 s) (hpc : pc s1 = a) (h1 : lo ≤ a) (h2 : a + 16 ≤ hi)
    (hc : CellIs d a R.plusLoopRt) (hb : CellIs d (a + 8) b) (hr : ret s = params lim idx ++ tok :: l)
    (hd : data s = x :: xs) : ∃ t1, Steps cfg (depth + 1) s1 t1 ∧
      (Crosses lim idx x → Like t1 (setRet (setData s xs) l) ∧ pc t1 = a + 16) ∧
      (¬ Crosses lim idx x → Like t1 (setRet (setData s xs) (params lim (idx + x) ++ tok :: l)) ∧ pc t1 = b) := by
  by_cases h : Crosses lim idx x
  · obtain ⟨t1, e1, e2, e3⟩ := run_plus_end (cfg := cfg) (n := depth) hl hs g hpc h1 h2 hc hr hd h
    exact ⟨t1, e1, fun _ => ⟨e2, e3⟩, fun k => absurd h k⟩
  · obtain ⟨t1, e1, e2, e3⟩ := run_plus_next (cfg := cfg) (n := depth) hl hs g hpc h1 h2 hc hb hr hd h
    exact ⟨t1, e1, fun k => absurd k h, fun _ => ⟨e2, e3⟩⟩

/-- C26. Counting up towards the limit: the line is crossed if the next index would reach it. -/
theorem C26_up {lim idx n : Cell} (h1 : idx.toInt < lim.toInt) (h2 : 0 ≤ n.toInt) :
    Crosses lim idx n ↔ lim.toInt ≤ idx.toInt + n.toInt := by
  rw [crosses_iff, counter_toInt]
  have := lim.toInt_lt; have := idx.toInt_lt; have := lim.le_toInt; have := idx.le_toInt; have := n.toInt_lt
  have e : ((idx - lim).toNat : Int) = 2 ^ 64 + idx.toInt - lim.toInt := by
    rw [BitVec.toNat_sub]
    rw [BitVec.toInt_eq_toNat_cond, BitVec.toInt_eq_toNat_cond] at *
    have := lim.isLt; have := idx.isLt
    split at * <;> split at * <;> omega
  rw [e, inIsize]
  omega

/-- C26. Counting down towards the limit: the line is crossed if the next index would be below it. -/
theorem C26_down {lim idx n : Cell} (h1 : lim.toInt ≤ idx.toInt) (h2 : n.toInt ≤ 0) :
    Crosses lim idx n ↔ idx.toInt + n.toInt < lim.toInt := by
  rw [crosses_iff, counter_toInt]
  have := lim.toInt_lt; have := idx.toInt_lt; have := lim.le_toInt; have := idx.le_toInt; have := n.le_toInt
  have e : ((idx - lim).toNat : Int) = idx.toInt - lim.toInt := by
    rw [BitVec.toNat_sub]
    rw [BitVec.toInt_eq_toNat_cond, BitVec.toInt_eq_toNat_cond] at *
    have := lim.isLt; have := idx.isLt
    split at * <;> split at * <;> omega
  rw [e, inIsize]
  omega
end

/-- Non-vacuity: on the machine as built, with any limit and any start on the stack, this text defines a word with a
loop and runs it. The loop adds one to the number below as often as is said. -/
example (start lim y : Cell) : ∃ t, Leads demoCfg 5 (desk [start, lim, y] ": n ?do 1+ loop ; n") t ∧ Listening t ∧
    data t = [y + BitVec.ofNat 64 (if start = lim then 0 else turns lim start)] := by
  have hs := @desk_word [start, lim, y] ": n ?do 1+ loop ; n"
  obtain ⟨d1, wd, d2, d3, d4, d5, d6⟩ := hs (List.mem_of_getElem? (i := 6) rfl)
  obtain ⟨q1, wq, q2, q3, q4, q5, q6⟩ := hs (List.mem_of_getElem? (i := 7) rfl)
  obtain ⟨m1, wm, m2, m3, m4, m5, m6⟩ := hs (List.mem_of_getElem? (i := 10) rfl)
  refine desk_runs (p := .loop true false 0 (.word 22)) (name := "n".toList) (t1 := " n ?do 1+ loop ; n".toList)
    (t2 := " ?do 1+ loop ; n".toList) (t3 := " ; n".toList) (t4 := " n".toList) (by simp) (by simp) (by decide)
    ⟨[], by decide, by decide, by decide, by decide, by decide⟩
    ⟨[' '], by decide, by decide, by decide, by decide, by decide⟩
    (.token (bs := [' ']) (t := "?do".toList) (text := " 1+ loop ; n".toList) (by decide) (by decide) (by decide)
      (by decide) (.imm q1 q2 q4 q3)
      (.token (bs := [' ']) (t := "1+".toList) (text := " loop ; n".toList) (by decide) (by decide) (by decide)
        (by decide) (.word d1 d2 d4)
        (.token (bs := [' ']) (t := "loop".toList) (text := " ; n".toList) (by decide) (by decide) (by decide)
          (by decide) (.imm m1 m2 m4 m3) .done)))
    ⟨[' '], by decide, by decide, by decide, by decide, by decide⟩
    ⟨[' '], by decide, by decide, by decide, by decide, by decide⟩ (by decide) (by decide)
    (by simp only [Stmt.calls]; simp; exact ⟨_, d2, d6⟩) rfl (by decide)
    (by intro a ha; simp only [Stmt.next]; omega) ?_
  intro wl lo hi a x v h10 hdr hrr
  exact loop_incr (fun s1 y1 e => .effect (name := "1+") (h10 22 _ d2) (List.mem_of_getElem? (i := 16) rfl)
    (by rw [d3]; decide +kernel) (by rw [e]; simp [unary, wrap, BitVec.ofInt_add]) (by rw [e]; simp [capacity])
    (by simp [capacity])) hdr hrr

example : Crosses 10 7 3 ∧ ¬ Crosses 10 7 2 ∧ Crosses 0 2 (-3) ∧ ¬ Crosses 0 2 (-2) := by
  rw [C26_up (by decide) (by decide), C26_up (by decide) (by decide), C26_down (by decide) (by decide),
    C26_down (by decide) (by decide)]
  decide

/-- Non-vacuity: a loop with `+loop` on the machine as built, with a step that crosses the limit at once. -/
example (start lim y : Cell) (h : Crosses lim start y) :
    ∃ t, Leads demoCfg 5 (desk [start, lim, y] ": n do dup +loop ; n") t ∧ Listening t ∧ data t = [y] := by
  have hs := @desk_word [start, lim, y] ": n do dup +loop ; n"
  obtain ⟨d1, wd, d2, d3, d4, d5, d6⟩ := hs (List.mem_of_getElem? (i := 2) rfl)
  obtain ⟨q1, wq, q2, q3, q4, q5, q6⟩ := hs (List.mem_of_getElem? (i := 8) rfl)
  obtain ⟨m1, wm, m2, m3, m4, m5, m6⟩ := hs (List.mem_of_getElem? (i := 13) rfl)
  refine desk_runs (p := .loop false true 0 (.word 18)) (name := "n".toList) (t1 := " n do dup +loop ; n".toList)
    (t2 := " do dup +loop ; n".toList) (t3 := " ; n".toList) (t4 := " n".toList) (by simp) (by simp) (by decide)
    ⟨[], by decide, by decide, by decide, by decide, by decide⟩
    ⟨[' '], by decide, by decide, by decide, by decide, by decide⟩
    (.token (bs := [' ']) (t := "do".toList) (text := " dup +loop ; n".toList) (by decide) (by decide) (by decide)
      (by decide) (.imm q1 q2 q4 q3)
      (.token (bs := [' ']) (t := "dup".toList) (text := " +loop ; n".toList) (by decide) (by decide) (by decide)
        (by decide) (.word d1 d2 d4)
        (.token (bs := [' ']) (t := "+loop".toList) (text := " ; n".toList) (by decide) (by decide) (by decide)
          (by decide) (.imm m1 m2 m4 m3) .done)))
    ⟨[' '], by decide, by decide, by decide, by decide, by decide⟩
    ⟨[' '], by decide, by decide, by decide, by decide, by decide⟩ (by decide) (by decide)
    (by simp only [Stmt.calls]; simp; exact ⟨_, d2, d6⟩) rfl (by decide)
    (by intro a ha; simp only [Stmt.next]; omega) ?_
  intro wl lo hi a x v h10 hdr hrr
  rw [hrr]
  have hd1 : data (setRet v [x]) = [start, lim, y] := by rw [setRet_data, hdr]
  have hr1 : ret (setRet v [x]) = [x] := ret_setRet (by simp)
  have hp : (params lim start ++ BitVec.ofNat 64 (a + 8) :: [x]).length < 256 := by simp [params]
  have e : data (setRet (setData (setRet v [x]) [y]) (params lim start ++ BitVec.ofNat 64 (a + 8) :: [x])) = [y] := by
    rw [setRet_data]; exact data_setData (by simp)
  have hw : Basic wl lo hi 18 (setRet (setData (setRet v [x]) [y]) (params lim start ++ BitVec.ofNat 64 (a + 8) :: [x]))
      (setData (setRet (setData (setRet v [x]) [y]) (params lim start ++ BitVec.ofNat 64 (a + 8) :: [x])) [y, y]) :=
    .effect (name := "dup") (h10 18 _ d2) (List.mem_of_getElem? (i := 1) rfl) (by rw [d3]; decide +kernel)
      (by rw [e]) (by rw [e]; simp [capacity]) (by simp [capacity])
  have hturn := Sem.plusEnd (tok := a + 8) (l := [x]) (k := [y]) (n := y) (.word hw) (by rw [setData_ret, ret_setRet hp])
    (data_setData (by simp)) h
  refine ⟨_, [], .seq (.loop hd1 (by simp) (by rw [hr1]; simp [capacity]) (by rw [hr1]; exact hturn)) .exit, ?_, ?_⟩
  · exact ret_setRet (by simp)
  · have key : Alike (setRet (setRet v [x]) []) v := by
      have := alike_ret v (l := [x]) (m := ret v) (by simp [capacity]) (by rw [hrr]; simp)
      rwa [setRet_self, hrr] at this
    rw [setRet_setData, setRet_setData, setRet_setData, setRet_setData, setRet_setData, setRet_setData, setRet_setData]
    refine .symm (.trans ?_ (Alike.setData key (by simp)))
    refine .trans (alike_data _ (by simp [capacity]) (by simp)) ?_
    refine .trans (alike_data _ (by simp [capacity]) (by simp)) ?_
    refine Alike.setData ?_ (by simp)
    refine .trans (alike_ret _ (by simp [capacity]) (by simp)) ?_
    exact alike_ret _ (by simp [params, capacity]) (by simp)

/-! ## C27 -/

/-- C27. A definition whose control words are not nested properly, or with a `LEAVE` outside of counted loops, is
refused: evaluation stops with a control structure mismatch and every name means what it meant before; in particular the
new word is not found. This goes for every sequence of words, numbers, strings and control words that never has more
than 64 structures open; the error handler is one that does nothing. -/
theorem C27_reject {cfg : Cfg} {depth lv : Nat} {s : VM} (hL : Listening s) (hC : Compiler s.refs lv s.wl)
    (hsz : s.wl.words.length < 2 ^ 64) (hfl : s.refs.flit ≠ 0) {pre text name rest : List Char} {items : List Item}
    (hin : Reading s.task pre text) (hdef : Definition cfg.fops s text name items rest) {dfa : Nat}
    (hdfa : dfa = roundUp8 (s.ds.here + 8 + (utf8 (name.map lowerChar)).length))
    (hord : ∀ it ∈ items, it.Ordinary s.wl lv) (hsh : Shallow lv items) (room : dfa + itemsRoom items ≤ s.ds.limit)
    (hcan : s.task.c.canary = .canary ∨ s.task.c.canary = .default) {wh : Word}
    (hh : s.wl.words[s.handler]? = some wh) (hn : wh.action = .core .noop) (hbad : ¬ Nested s.refs lv items) :
    ∃ n t, (∀ fuel, evaluateInput cfg (depth + 2) (fuel + n) s = .ok ((), t)) ∧
      t.lastError = some .controlStructureMismatch ∧ ∀ nm r, Newest t nm r ↔ Newest s nm r := by
  obtain ⟨n, t, h1, h2, h3, -⟩ := definition_refused (depth := depth) hL hC hsz hfl hin hdef hdfa hord hsh room hcan hh hn hbad
  exact ⟨n, t, h1, h2, h3⟩

/-- C27. The same definition is accepted if it is nested properly: the interpreter waits for more input, without an error
and with one more word, which is found under the given name. -/
theorem C27_accept {cfg : Cfg} {depth lv : Nat} {s : VM} (hL : Listening s) (hC : Compiler s.refs lv s.wl)
    (hsz : s.wl.words.length < 2 ^ 64) (h1 : 1 ≤ s.wl.words.length) (hfl : s.refs.flit ≠ 0)
    {pre text name rest : List Char} {items : List Item}
    (hin : Reading s.task pre text) (hdef : Definition cfg.fops s text name items rest) {dfa : Nat}
    (hdfa : dfa = roundUp8 (s.ds.here + 8 + (utf8 (name.map lowerChar)).length))
    (hord : ∀ it ∈ items, it.Ordinary s.wl lv) (hsh : Shallow lv items) (room : dfa + itemsRoom items + 8 ≤ s.ds.limit)
    (hgood : Nested s.refs lv items) :
    ∃ t, Leads cfg (depth + 2) s t ∧ Listening t ∧ t.wl.words.length = s.wl.words.length + 1 ∧
      ∀ nm, SameName (utf8 (name.map lowerChar)) nm → Newest t nm (some s.wl.words.length) := by
  obtain ⟨p, rfl, hp⟩ := nested_compilable hC hord hsh room hgood
  obtain ⟨t, pre', e1, e2, -, -, -, e6, e7, -⟩ := C24_compile (depth := depth) hL hC hsz h1 hfl hin hdef hdfa hp
  exact ⟨t, e1, e2, e6, e7⟩

/-- C27. Which sequences are nested properly is decided by keeping a list of open structures. -/
theorem C27_nested {R : Refs} {wl : Wordlist} {lv : Nat} {items : List Item} (hC : Compiler R lv wl)
    (hord : ∀ it ∈ items, it.Ordinary wl lv) : Nested R lv items ↔ openItems lv items [] = some [] := by
  refine nested_iff_open (fun e => ?_) hord
  obtain ⟨w, e1, e2⟩ := hC.exit
  obtain ⟨w', e3, e4⟩ := hC.leave
  rw [e, e3] at e1
  cases e1
  rw [e2] at e4
  cases e4

/-- Non-vacuity: on the machine as built, a definition with an `if` closed by `loop`. -/
example : ∃ n t, (∀ fuel, evaluateInput demoCfg 5 (fuel + n) (desk [] ": n if dup loop ;") = .ok ((), t)) ∧
    t.lastError = some .controlStructureMismatch ∧ ∀ nm r, Newest t nm r ↔ Newest (desk [] ": n if dup loop ;") nm r := by
  have hs := @desk_word [] ": n if dup loop ;"
  obtain ⟨c1, wc, c2, c3, c4, c5, c6⟩ := hs (List.mem_of_getElem? (i := 0) rfl)
  obtain ⟨s1, ws, s2, s3, s4, s5, s6⟩ := hs (List.mem_of_getElem? (i := 1) rfl)
  obtain ⟨d1, wd, d2, d3, d4, d5, d6⟩ := hs (List.mem_of_getElem? (i := 2) rfl)
  obtain ⟨m1, wm, m2, m3, m4, m5, m6⟩ := hs (List.mem_of_getElem? (i := 10) rfl)
  obtain ⟨q1, wq, q2, q3, q4, q5, q6⟩ := hs (List.mem_of_getElem? (i := 11) rfl)
  obtain ⟨n1, n2, n3, n4, n5, n6, n7, n8, n9⟩ := desk_numbers [] ": n if dup loop ;"
  obtain ⟨k1, wh, k2, k3⟩ := desk_handler [] ": n if dup loop ;"
  have hL := desk_listening (l := []) (by simp) ": n if dup loop ;"
  have hC := desk_compiler [] ": n if dup loop ;"
  have hR := desk_reading [] (text := ": n if dup loop ;") (by decide)
  generalize desk [] ": n if dup loop ;" = s at *
  have hlim : s.ds.limit = 66560 := by simp only [DataSpace.limit, n4, n5]
  have hord : ∀ it ∈ [Item.imm .immIf, .word 18, .imm .immLoop], it.Ordinary s.wl 15 := by
    simp only [List.mem_cons, List.not_mem_nil, or_false]
    rintro it (rfl | rfl | rfl)
    · simp [Item.Ordinary, controlWords]
    · exact .inr ⟨_, d2, d6⟩
    · simp [Item.Ordinary, controlWords]
  refine C27_reject (depth := 3) (items := [.imm .immIf, .word 18, .imm .immLoop]) (name := "n".toList) (rest := []) hL hC
    (by omega) n2 hR
    ⟨":".toList, ";".toList, " n if dup loop ;".toList, " if dup loop ;".toList, " ;".toList, 16, 17, wc, ws,
      ⟨[], by decide, by decide, by decide, by decide, by decide⟩,
      ⟨[' '], by decide, by decide, by decide, by decide, by decide⟩,
      .token (bs := [' ']) (t := "if".toList) (text := " dup loop ;".toList) (by decide) (by decide) (by decide) (by decide)
        (.imm q1 q2 q4 q3)
        (.token (bs := [' ']) (t := "dup".toList) (text := " loop ;".toList) (by decide) (by decide) (by decide) (by decide)
          (.word d1 d2 d4)
          (.token (bs := [' ']) (t := "loop".toList) (text := " ;".toList) (by decide) (by decide) (by decide) (by decide)
            (.imm m1 m2 m4 m3) .done)),
      ⟨[' '], by decide, by decide, by decide, by decide, by decide⟩, c1, c2, c3, c5, s1, s2, s3, s4⟩ rfl hord ?_ ?_
    (.inl k1) k2 k3 ?_
  · intro l M hl hM
    obtain ⟨m, hm⟩ := hl
    rcases l with _ | ⟨a, _ | ⟨b, _ | ⟨c, _ | ⟨d, l⟩⟩⟩⟩ <;> simp at hm
    · cases hM; simp
    · obtain ⟨rfl, -⟩ := hm
      cases hM; simp
    · obtain ⟨rfl, rfl, -⟩ := hm
      cases hM; simp
    · obtain ⟨rfl, rfl, rfl, -⟩ := hm
      cases hM
  · rw [hlim]
    have : (utf8 ("n".toList.map lowerChar)).length = 1 := by decide
    rw [this]
    simp only [roundUp8, itemsRoom, Item.room, List.map_cons, List.map_nil, List.sum_cons, List.sum_nil]
    omega
  · rw [C27_nested hC hord]
    simp [openItems, openItem, openAfter]

end Verif
