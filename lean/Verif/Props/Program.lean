import Verif.Lemmas.Cold
import Verif.Props.Args
import Verif.Props.Rtf
import Verif.Props.Session

/-!
# A run of the program rtf (C69)

rtf/src/main.rs, rtf/rtf.fth.
-/

namespace Verif
open Spec Stack

section
variable {cfg : Cfg} {n i : Nat} {s u : VM} {w : Word}

/-- C69. `receive` makes the line that the user typed the text to be read. -/
theorem C69_receive {text buf : List Char} (hw : s.wl.words[i]? = some w) (ha : w.action = .receive) (h0 : s.task.st.sourceId = 0)
    (hi : s.task.inbuf = some buf) (hl : cfg.answers s.host.calls = .line text) : Acts cfg (n + 1) i s (typed s text) := by
  intro s1 hli hpc
  obtain ⟨ip, wp, ds, rs, fs, k1, k2, k3, e⟩ := hli
  have hw1 : s1.wl.words[i]? = some w := by rw [e]; exact hw
  have ht : s1.task = { s.task with s := ds, r := rs, f := fs, st := { s.task.st with ip := ip, wp := wp } } := by
    rw [e]; exact VM.task_setTask s _
  have hc : s1.host = s.host := by rw [e]; rfl
  have ht2 : (s1.at s1.task.st.ip i).task = { s1.task with st := { s1.task.st with wp := i } } := by simp [VM.at]
  have hx : execWord cfg (n + 1) i s1 = .ok ((), typed (s1.at s1.task.st.ip i) text) := by
    rw [exec_word hw1, ha]
    show pReceive _ _ = _
    rw [pReceive, M.bind_apply, nextAnswer]
    have : (s1.at s1.task.st.ip i).host = s.host := hc
    rw [this, hl]
    show setSource text _ = _
    rw [setSource_run (buf := buf) (by show (s1.at s1.task.st.ip i).task.st.sourceId = 0; rw [ht2, ht]; exact h0)
      (by show (s1.at s1.task.st.ip i).task.inbuf = _; rw [ht2, ht]; exact hi)]
    rw [typed, this]; rfl
  refine ⟨_, _, hx, rfl, .refl _, ?_, ?_⟩
  · refine ⟨ip, i, ds, rs, fs, ?_, ?_, ?_, ?_⟩
    · show LikeStack ds (s.setTask _).task.s
      rw [VM.task_setTask]; exact k1
    · show LikeStack rs (s.setTask _).task.r
      rw [VM.task_setTask]; exact k2
    · show LikeStack fs (s.setTask _).task.f
      rw [VM.task_setTask]; exact k3
    · rw [typed, ht2, ht, e, typed]
      simp only [VM.at, VM.setTask, VM.task, if_true]
      congr 1
      funext j
      split <;> rfl
  · show ((s1.at s1.task.st.ip i).setTask _).task.st.ip = _
    rw [VM.task_setTask, ht2]; rfl

/-- The machine after the answer of the user was the end of input. -/
def Spec.heardEnd (s : VM) : VM := { s with host := { s.host with calls := s.host.calls + 1 } }

/-- C69. At the end of input `receive` makes the inner interpreter stop. -/
theorem C69_end {lv V : Nat} {g1 g2 g : Nat × Nat} {ix : String → Nat} {s0 : VM} (h : HasRepl lv g1 g2 g V ix s0)
    (hk : StillLoaded lv [g1, g2, g] s0 u) (hw : s0.wl.words[ix "receive"]? = some w) (ha : w.action = .receive)
    (hpos : 0 < s0.ds.start) (he : cfg.answers u.host.calls = .eof) {u1 : VM} (hl : Like u1 u) (hp : PromptAt ix s0 (pc u1)) :
    ∃ v, Like v (heardEnd u) ∧ pc v = 0 ∧ ∀ fuel, run cfg (n + 1) (fuel + 2) u1 = .ok ((), v) := by
  obtain ⟨wq, w1, w2, w3, w4, w5, -⟩ := h.layout
  obtain ⟨w', q1, q2⟩ := hp
  rw [w1] at q1; cases q1
  have hL := (hk.loaded (g := g) (by simp)).like hl
  have := (answerCode ix).le_next (wq.dfa + 16)
  have gg := h.region
  obtain ⟨x, x1, x2, -⟩ := hL.kept _ w hw
  have hc : u1.host = u.host := by obtain ⟨_, _, _, _, _, -, -, -, rfl⟩ := hl; rfl
  generalize hz : (u1.at (pc u1 + 8) u1.task.st.wp).at (pc u1 + 8) (ix "receive") = z
  have hzl : Like z u := by rw [← hz]; exact (hl.at _ _).at _ _
  have hzh : z.host = u.host := by rw [← hz]; exact hc
  have hzd : z.ds = u1.ds := by rw [← hz]; rfl
  have hx : execWord cfg (n + 1) (ix "receive") (u1.at (pc u1 + 8) u1.task.st.wp) =
      .ok ((), (heardEnd z).setTask { (heardEnd z).task with st := { (heardEnd z).task.st with ip := 0 } }) := by
    rw [exec_word (s := u1.at (pc u1 + 8) u1.task.st.wp) (w := x) x1, x2, ha]
    have : (u1.at (pc u1 + 8) u1.task.st.wp).task.st.ip = pc u1 + 8 := by simp
    rw [this, hz]
    show pReceive _ _ = _
    rw [pReceive, M.bind_apply, nextAnswer, hzh, he]
    show bye _ = _
    rw [bye, setIp, modSt_apply, heardEnd, hzh]
  generalize hv : (heardEnd z).setTask { (heardEnd z).task with st := { (heardEnd z).task.st with ip := 0 } } = v at hx
  have hvi : v.task.st.ip = 0 := by rw [← hv, VM.task_setTask]
  have hvd : v.ds = u1.ds := by rw [← hv, ← hzd]; rfl
  refine ⟨v, ?_, hvi, fun fuel => ?_⟩
  · obtain ⟨ip, wp, ds, rs, fs, k1, k2, k3, e⟩ := hzl
    refine ⟨0, wp, ds, rs, fs, k1, k2, k3, ?_⟩
    rw [← hv, e, heardEnd, heardEnd]
    simp only [VM.setTask, VM.task, if_true]
    congr 1
    funext j
    split <;> rfl
  · have hs : step cfg (n + 1) v = .ok (false, v) := by
      have h0 : ¬ u1.ds.start ≤ 0 := by
        have k2 := hL.start
        omega
      rw [step, M.bind_apply, getSt_apply]
      dsimp only
      rw [hvi, M.bind_ok (dsRd_ok (a := false) (by rw [hvd, ipOk, rangeOk, if_neg h0]))]
      rfl
    rw [run, M.bind_ok (step_word hL gg rfl (by omega) (by omega) (by rw [q2]; exact w3) hx)]
    show run cfg (n + 1) (fuel + 1) v = _
    rw [run, M.bind_ok hs]
    rfl

variable {b : Nat} {ix : String → Nat} {text : List Char}

/-- C69. The program finds `cold`, although it asks for `COLD`. -/
theorem C69_find (h : RtfLoaded b ix text s) (c : Ctx) : findE c "COLD" s = .ok (ix "cold", s) := by
  obtain ⟨r, h1, h2⟩ := C20_find h.core.listening.dict ⟨h.core.listening.space.small, h.core.listening.space.inside⟩ c (ascii "COLD")
  have h3 : Newest s (ascii "COLD") (some (ix "cold")) := by
    have hv : ∀ j, Visible s (ascii "cold") j ↔ Visible s (ascii "COLD") j := by
      intro j
      simp only [Visible, sameName_iff, show (ascii "cold").map lowerByte = (ascii "COLD").map lowerByte by decide]
    have := h.names "cold" (by simp [rtfNames])
    exact ⟨(hv _).1 this.1, fun j hj k => this.2 j hj ((hv j).2 k)⟩
  cases C20_unique h2 h3
  rw [findE, M.bind_ok h1]
  rfl

theorem Spec.RtfLoaded.positive (h : RtfLoaded b ix text s) : 0 < s.ds.start := h.core.listening.space.pos

/-- The program ends where `cold` leads to a prompt at which the input ends. -/
theorem repl_ends (h : RtfLoaded b ix text s) {s2 u1 : VM} (hx : execWord cfg (n + 1) (ix "cold") s = .ok ((), s2))
    (hs : Steps cfg (n + 1) s2 u1) (hl : Like u1 u) (hp : PromptAt ix s (pc u1)) (hk : StillLoaded (ix "leave") (rtfRegions b) s u)
    (he : cfg.answers u.host.calls = .eof) :
    ∃ N v, (∀ fuel, N ≤ fuel → repl cfg (n + 1) fuel s = .ok ((), flushed v)) ∧ Like v (heardEnd u) ∧ pc v = 0 := by
  obtain ⟨w, w1, w2⟩ := h.receive
  obtain ⟨v, v1, v2, v3⟩ := C69_end (cfg := cfg) (n := n) h.repl hk w1 w2 h.positive he hl hp
  obtain ⟨N, hN⟩ := steps_run hs
  refine ⟨N + 2, v, fun fuel hf => ?_, v1, v2⟩
  obtain ⟨k, rfl⟩ : ∃ k, fuel = k + 2 + N := ⟨fuel - 2 - N, by omega⟩
  rw [repl, M.bind_ok (C69_find h _), M.bind_ok hx, M.bind_ok ((hN (k + 2)).trans (v3 k))]
  exact flushOutput_apply v

variable {room : Nat} {toks : List (List Char)} {t : VM} {e : Exn} {P : List Cell → VM → Prop}

/-- C69. `cold` evaluates the arguments of the program and comes to the prompt. -/
theorem C69_args (h : RtfLoaded b ix text s) {wh : Word} (hwh : s.wl.words[ix "halt"]? = some wh)
    (hw : Works cfg n room (StillLoaded (ix "leave") (rtfRegions b) s) toks (roused s (ix "(abort)") (wh.dfa + 8)) t)
    (hd : (data t).length ≤ capacity) (hroom : room + 2 ≤ capacity) :
    ∃ s2 t1, execWord cfg (n + 1) (ix "cold") s = .ok ((), s2) ∧ Steps cfg (n + 1) s2 t1 ∧ Like t1 (afresh t) ∧ PromptAt ix s (pc t1) :=
  cold_prompt h hwh hw hd hroom

/-- C69. If evaluating the arguments comes to an error, the program tells about it and comes to the prompt all the same. -/
theorem C69_bad_args (h : RtfLoaded b ix text s) {wh : Word} (hwh : s.wl.words[ix "halt"]? = some wh) (hn : 0 < n)
    (hw : Fails cfg n room (StillLoaded (ix "leave") (rtfRegions b) s) e P toks (roused s (ix "(abort)") (wh.dfa + 8)))
    (hP : ∀ z u, Behind ix s "cold" (coldBody ix) z → P [toCell z, toCell (pc s)] u →
      StillLoaded (ix "leave") (rtfRegions b) s u ∧ Recoverable (b + 10136) ix u) (hroom : room + 2 ≤ capacity) :
    ∃ z u s2 t1, Behind ix s "cold" (coldBody ix) z ∧ P [toCell z, toCell (pc s)] u ∧ execWord cfg (n + 1) (ix "cold") s = .ok ((), s2) ∧
      Steps cfg (n + 1) s2 t1 ∧ Recovered (b + 10136) ix s e u t1 ∧ PromptAt ix s (pc t1) := by
  have hc : capacity = 64 := rfl
  obtain ⟨s2, t1, x1, x2, x3, x4, x5, x6, x7, x8⟩ := cold_leads cfg n h hwh
  obtain ⟨u, m, hm, hu, hx⟩ := breaks_read h.repl hw (h.still (t := roused s (ix "(abort)") (wh.dfa + 8)) rfl rfl rfl rfl _) hn
    (by rw [data_roused, show data s = [] from h.core.empty]; decide) (by simp; omega) x6 x4 (by show _ ≤ b + 11496; omega) x3 rfl
  obtain ⟨hk, hR⟩ := hP _ u x8 hu
  obtain ⟨x, t2, y1, y2, y3, y4⟩ := C66_error (cfg := cfg) (n := m) (e := e) h.repl hk hR
  exact ⟨_, u, s2, t2, x8, hu, x1, (x2.trans (hx x y1)).trans (y2.deeper (by omega)), y4, y3⟩

/-- C69. A run of the program: the arguments are evaluated, then the lines that the user types, with or without errors, and
at the end of input the program ends. -/
theorem C69_run (h : RtfLoaded b ix text s) {wh : Word} (hwh : s.wl.words[ix "halt"]? = some wh) (hn : 0 < n)
    (hw : Works cfg n room (StillLoaded (ix "leave") (rtfRegions b) s) toks (roused s (ix "(abort)") (wh.dfa + 8)) t)
    (hd : (data t).length ≤ capacity) (hroom : room + 2 ≤ capacity) {Q : VM → Prop}
    (hS : Session cfg n room (ix "leave") (rtfRegions b) (b + 10136) ix s (fun u => Q u ∧ cfg.answers u.host.calls = .eof) (afresh t)) :
    ∃ N u v, (∀ fuel, N ≤ fuel → repl cfg (n + 1) fuel s = .ok ((), flushed v)) ∧ Q u ∧ Like v (heardEnd u) ∧ pc v = 0 := by
  obtain ⟨s2, t1, x1, x2, x3, x4⟩ := cold_prompt h hwh hw hd hroom
  have hk := (hw.still (h.still (t := roused s (ix "(abort)") (wh.dfa + 8)) rfl rfl rfl rfl _)).congr (t := afresh t) rfl rfl rfl rfl
  obtain ⟨u, u1, y1, y2, y3, y4, y5⟩ := C66_session h.repl hn hS hk x4 x3 rfl
  obtain ⟨N, v, z1, z2, z3⟩ := repl_ends h x1 (x2.trans y3) y5 (by rw [y4]; exact x4) y2 y1.2
  exact ⟨N, u, v, z1, y1.1, z2, z3⟩

end
end Verif
