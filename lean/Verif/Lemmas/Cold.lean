import Verif.Lemmas.Session
import Verif.Spec.Rtf

/-!
# The words `halt` and `cold`
-/

namespace Verif
open Spec Stack

/-- Task `k` has been made to go on at `a`. -/
def stirred (s : VM) (k : Fin 5) (a : Nat) : VM := { s.setTaskAt k (activated (s.tasks k) a) with lastError := none }

section
variable {s t : VM} {k : Fin 5} {a : Nat} {l r : List Cell} {m : DataSpace}

theorem stirred_task (hk : k ≠ s.cur) : (stirred s k a).task = s.task := by
  have : s.cur ≠ k := fun e => hk e.symm
  simp [stirred, VM.setTaskAt, VM.task, this]

theorem stirred_setTask (hk : k ≠ s.cur) (x : Task) : stirred (s.setTask x) k a = (stirred s k a).setTask x := by
  have hk' : s.cur ≠ k := fun e => hk e.symm
  simp only [stirred, VM.setTask, VM.setTaskAt]
  congr 1
  funext i
  by_cases h1 : i = k
  · subst h1; simp [hk]
  · by_cases h2 : i = s.cur
    · subst h2; simp [hk']
    · simp [h1, h2]

theorem stirred_shape (hk : k ≠ s.cur) : shape (stirred s k a) l r m = stirred (shape s l r m) k a := by
  rw [shape_eq, shape_eq, stirred_task hk, ← stirred_setTask hk]
  rfl

theorem Spec.Like.stirred (h : Like s t) (hk : k ≠ t.cur) : Like (stirred s k a) (stirred t k a) := by
  obtain ⟨ip, wp, ds, rs, fs, h1, h2, h3, rfl⟩ := h
  refine ⟨ip, wp, ds, rs, fs, ?_, ?_, ?_, ?_⟩
  · rw [stirred_task hk]; exact h1
  · rw [stirred_task hk]; exact h2
  · rw [stirred_task hk]; exact h3
  · rw [stirred_setTask hk, stirred_task hk]

theorem activate_run (c : Ctx) {v x : Cell} {rl : List Cell} (h : s.task.s.items = v :: l)
    (hr : s.task.r.items = x :: rl) (hv : v.toNat = k.val + 1) (hk : k ≠ s.cur) :
    activate c s = .ok ((), stirred (s.setTask { s.task with
      s := s.task.s.pop.2, r := s.task.r.pop.2, st := { s.task.st with ip := x.toNat } }) k s.task.st.ip) := by
  have hr' : Rep s.task.r (x :: rl) := hr ▸ rep_items s.task.r
  rw [activate, M.bind_apply, popTaskId_in h hv]
  have hck : s.cur ≠ k := fun e => hk e.symm
  simp only [setAwake, M.bind_apply, modVM_run, getVM_apply, setCur, reset_run, setIp, modSt_apply, rPop_apply]
  have hc : (withData s s.task.s.pop.2).tasks k = s.tasks k := by simp [withData, VM.setTask, hk]
  have hx : s.task.r.pop.1 = x := hr'.pop_fst
  simp only [VM.setTask, VM.setTaskAt, VM.task, withData, activated, fresh, stirred] at *
  congr 3
  funext i
  by_cases h1 : i = k
  · subst h1; simp [hk, hck]
  · by_cases h2 : i = s.cur
    · subst h2; simp [hck, hx]
    · simp [h1, h2]

end

section
variable {R : Refs} {wl : Wordlist} {lv lo hi n i : Nat} {k : Fin 5} {d : DataSpace} {s t : VM} {cfg : Cfg}
  {l r : List Cell} {m : DataSpace} {ix : String → Nat}

/-- `halt` wakes another task, which goes on with `nod`. -/
theorem acts_halt (g : Region d lo hi) (hu : Builtin wl (ix "activate") "activate") (B : Coded R lv wl lo hi d ix (taskCode ix))
    {v : Cell} (hL : Loaded R lv wl lo hi k d (shape s (v :: l) r m)) (hl : l.length < capacity) (hr : r.length < capacity)
    {j : Fin 5} (hv : v.toNat = j.val + 1) (hj : j ≠ s.cur) {w : Word} (hw : wl.words[ix "halt"]? = some w) :
    Acts cfg (n + 1) (ix "halt") (shape s (v :: l) r m) (shape (stirred s j (w.dfa + 8)) l r m) := by
  have hc : capacity = 64 := rfl
  obtain ⟨w', w1, w2, w3, w4, w5⟩ := B _ (List.mem_of_getElem? (i := 1) rfl)
  rw [hw] at w1; cases w1
  have w6 : CellIs d w.dfa (ix "activate") := w5.1.1
  have w7 : w.dfa + 8 ≤ hi := by
    have w8 : w.dfa + 8 + 8 + 8 ≤ hi := w4
    omega
  intro s1 hli hpc
  obtain ⟨y, e1, e2, e3⟩ := (hL.like hli).kept _ w hw
  have hr1 : s1.task.r.items = r := hli.ret.trans (shape_ret (by omega))
  have hd1 : s1.task.s.items = v :: l := hli.data.trans (shape_data (by simp; omega))
  have hcur : s1.cur = s.cur := by obtain ⟨_, _, _, _, _, -, -, -, rfl⟩ := hli; rfl
  have hp1 := push_holding s1.task.r (toCell (pc s1)) (by rw [hr1]; omega)
  rw [hr1] at hp1
  have ex : execWord cfg (n + 1) (ix "halt") s1 = .ok ((), s1.put s1.task.s (s1.task.r.push (toCell (pc s1))) s1.task.f w.dfa (ix "halt")) := by
    rw [exec_word e1, e2, w2]
    simp only [action, coreAction, nest, M.bind_apply, getSt_apply, VM.at_task, rPush_apply]
    rw [wordAt_ok (w := y) (by simpa using e1)]
    simp [setIp, VM.at, VM.put, e3, pc]
  have hl2 : Like (s1.put s1.task.s (s1.task.r.push (toCell (pc s1))) s1.task.f w.dfa (ix "halt")) (shape s (v :: l) (toCell (pc s1) :: r) m) := by
    have := like_shape (m' := m) (l' := v :: l) (by simp; omega) (by omega) (by simp; omega) (r' := toCell (pc s1) :: r) (by simp; omega) hli
      (ds := s1.task.s) (rs := s1.task.r.push (toCell (pc s1))) (by rw [← hd1, holding_self]; exact .refl _)
      (by rw [hp1]; exact .refl _) w.dfa (ix "halt")
    have hds : s1.ds = m := hli.ds
    rw [← hds] at this ⊢
    exact this
  have hle : (s1.put s1.task.s (s1.task.r.push (toCell (pc s1))) s1.task.f w.dfa (ix "halt")).lastError = s1.lastError := rfl
  generalize hW : s1.put s1.task.s (s1.task.r.push (toCell (pc s1))) s1.task.f w.dfa (ix "halt") = W at *
  have hpW : pc W = w.dfa := by rw [← hW]; simp [pc, VM.put]
  have hL2 := hL.stacks (l' := v :: l) (r' := toCell (pc s1) :: r)
  obtain ⟨x, x1, x2⟩ := hu
  have hp' := prim_inj x2 (p := .core .activate) rfl
  have hl3 := hl2.at (w.dfa + 8) W.task.st.wp
  obtain ⟨z, z1, z2, -⟩ := (hL2.like hl3).kept _ x x1
  have hl4 := hl3.at (w.dfa + 8) (ix "activate")
  have hip : (W.at (w.dfa + 8) W.task.st.wp).task.st.ip = w.dfa + 8 := by simp
  generalize hZ : (W.at (w.dfa + 8) W.task.st.wp).at (w.dfa + 8) (ix "activate") = Z at hl4
  have hZi : Z.task.st.ip = w.dfa + 8 := by rw [← hZ]; simp
  have hcZ : Z.cur = s.cur := by obtain ⟨_, _, _, _, _, -, -, -, rfl⟩ := hl4; rfl
  have hrZ : Z.task.r.items = toCell (pc s1) :: r := hl4.ret.trans (shape_ret (by simp; omega))
  have hdZ : Z.task.s.items = v :: l := hl4.data.trans (shape_data (by simp; omega))
  have hjZ : j ≠ Z.cur := by rw [hcZ]; exact hj
  have ex2 : execWord cfg (n + 1) (ix "activate") (W.at (w.dfa + 8) W.task.st.wp) =
      .ok ((), stirred (Z.setTask { Z.task with
        s := Z.task.s.pop.2, r := Z.task.r.pop.2, st := { Z.task.st with ip := (toCell (pc s1)).toNat } }) j (w.dfa + 8)) := by
    rw [exec_word z1, z2, hp', hip, hZ]
    show activate _ Z = _
    rw [activate_run _ hdZ hrZ hv hjZ, hZi]
  refine ⟨W, _, ex, hle, .one (step_word (hL2.like hl2) g hpW w3 w7 w6 ex2), ?_, ?_⟩
  · rw [stirred_shape hj]
    refine Like.stirred ?_ hj
    have := like_shape (m' := m) (l' := l) (by simp; omega) (by simp; omega) (by omega) (r' := r) (by omega) hl4
      (ds := Z.task.s.pop.2) (rs := Z.task.r.pop.2) (by rw [pop_holding hdZ]; exact .refl _)
      (by rw [pop_holding hrZ]; exact .refl _) (toCell (pc s1)).toNat Z.task.st.wp
    have hds : Z.ds = m := hl4.ds
    rw [← hds] at this ⊢
    exact this
  · rw [pc, stirred_task (by exact hjZ), VM.task_setTask]
    exact toNat_toCell hpc

/-- `handler!` -/
theorem doing_handler (hb : Builtin wl i "handler!") {v : Cell} (hl : l.length < capacity) (hr : r.length ≤ capacity) :
    Doing cfg n R lv wl lo hi k d i (shape s (v :: l) r m) (shape { s with handler := v.toNat } l r m) := by
  have hc : capacity = 64 := rfl
  obtain ⟨w, hw, hp⟩ := hb
  have hp' := prim_inj hp (p := .core .handlerStore) rfl
  intro hL
  refine ⟨fun s1 hli => ?_, hL.congr rfl rfl rfl⟩
  obtain ⟨y, e1, e2, -⟩ := (hL.like hli).kept i w hw
  have hla := hli.at (pc s1) i
  have k1 : (s1.at (pc s1) i).task.s.items = v :: l := hla.data.trans (shape_data (by simp; omega))
  have k2 : (s1.at (pc s1) i).task.r.items = r := hla.ret.trans (shape_ret hr)
  have kpc : pc (s1.at (pc s1) i) = pc s1 := by simp [pc]
  have hds : (s1.at (pc s1) i).ds = m := hla.ds
  have hx : execWord cfg (n + 1) i s1 = handlerStore (s1.at (pc s1) i) := by rw [exec_word e1, e2, hp']; rfl
  generalize s1.at (pc s1) i = U at *
  refine ⟨{ U.setTask { U.task with s := U.task.s.pop.2 } with handler := v.toNat }, ?_, ?_, ?_⟩
  · rw [hx, handlerStore, M.bind_apply, sPop_apply]
    simp only [modVM_apply]
    rw [(items_eq_iff.1 k1).pop_fst]
  · have := like_shape (m' := m) (l' := l) (by simp; omega) hr (by omega) (r' := r) hr hla
      (ds := U.task.s.pop.2) (rs := U.task.r) (by rw [pop_holding k1]; exact .refl _)
      (by rw [← k2, holding_self]; exact .refl _) U.task.st.ip U.task.st.wp
    rw [← hds] at this ⊢
    obtain ⟨ip, wp, ds, rs, fs, h1, h2, h3, h4⟩ := this
    refine ⟨ip, wp, ds, rs, fs, h1, h2, h3, ?_⟩
    exact congrArg (fun x : VM => { x with handler := v.toNat }) h4
  · show pc (U.setTask _) = _
    rw [pc, VM.task_setTask]
    exact kpc

end

section
variable {s t : VM} {cfg : Cfg} {ix : String → Nat} {b n room : Nat} {text : List Char} {toks : List (List Char)}

/-- The regions with the library, `evaluate-input` and the words of rtf.fth. -/
abbrev Spec.rtfRegions (b : Nat) : List (Nat × Nat) := [(b + 4176, b + 7048), (b + 9976, b + 10136), (b + 10696, b + 11496)]

theorem Spec.RtfLoaded.still (h : RtfLoaded b ix text s) (hr : t.refs = s.refs) (hc : t.cur = s.cur) (hd : t.ds = s.ds) (hw : t.wl = s.wl)
    (gs : List (Nat × Nat)) : StillLoaded (ix "leave") gs s t :=
  StillLoaded.congr (s := s)
    ⟨rfl, fun _ _ => ⟨rfl, rfl, rfl, fun _ _ _ => rfl, h.repl.equipped.words, fun _ w hw => ⟨w, hw, rfl, rfl⟩⟩⟩ hr hc hd hw

theorem roused_eq (hc : s.cur = 0) (a v : Nat) :
    { stirred (stirred (stirred (stirred s 1 a) 2 a) 3 a) 4 a with handler := v } = roused s v a := by
  simp only [stirred, roused, VM.setTaskAt, hc]
  congr 1
  funext i
  match i with
  | 0 => rfl
  | 1 => rfl
  | 2 => rfl
  | 3 => rfl
  | 4 => rfl

theorem Spec.Arrives.here {R : Refs} {lv lo hi a0 a1 : Nat} {wl : Wordlist} {k : Fin 5} {d : DataSpace} {p : Stmt} :
    Arrives cfg n R lv wl lo hi k d a0 a1 p s fun t => Like t s ∧ p.At R lv d (pc t) ∧ lo ≤ pc t ∧ p.next (pc t) ≤ hi ∧ a0 ≤ pc t ∧
      p.next (pc t) ≤ a1 := by
  intro _ a s1 hat h1 h2 h3 h4 hl hp
  subst hp
  exact ⟨s1, .refl _, hl, hat, h1, h2, h3, h4⟩

theorem data_roused (s : VM) (h a : Nat) : data (roused s h a) = data s := by
  rw [data, VM.task, roused]; simp only [if_true]; rfl

/-- `cold` wakes the other tasks and comes to the call of `evaluate-input`. -/
theorem cold_leads (cfg : Cfg) (n : Nat) (h : RtfLoaded b ix text s) {wh : Word} (hwh : s.wl.words[ix "halt"]? = some wh) :
    ∃ s2 t1, execWord cfg (n + 1) (ix "cold") s = .ok ((), s2) ∧ Steps cfg (n + 1) s2 t1 ∧
      Like t1 (setRet (roused s (ix "(abort)") (wh.dfa + 8)) [toCell (pc s)]) ∧ b + 10696 ≤ pc t1 ∧ pc t1 + 16 ≤ b + 11496 ∧
      CellIs s.ds (pc t1) (ix "evaluate-input") ∧ CellIs s.ds (pc t1 + 8) (ix "quit") ∧
      Behind ix s "cold" (coldBody ix) (pc t1 + 8) := by
  have hc : capacity = 64 := rfl
  obtain ⟨w, w1, w2, w3, w4, w5⟩ := h.cold _ (List.mem_of_getElem? (i := 0) rfl)
  obtain ⟨wa, a1, -⟩ := h.repl.coded _ (List.mem_of_getElem? (i := 1) rfl)
  have hret : s.task.r.items = [] := h.ret
  have hdat : s.task.s.items = [] := h.core.empty
  have habort : (BitVec.ofNat 64 (ix "(abort)")).toNat = ix "(abort)" := by
    have k1 : ix "(abort)" < s.wl.words.length := (List.getElem?_eq_some_iff.1 a1).1
    have k2 := h.core.listening.dict.length_lt ⟨h.core.listening.space.small, h.core.listening.space.inside⟩
    rw [BitVec.toNat_ofNat, Nat.mod_eq_of_lt (by omega)]
  have hp1 := push_holding s.task.r (toCell (pc s)) (by rw [hret]; decide)
  rw [hret] at hp1
  have ex : execWord cfg (n + 1) (ix "cold") s =
      .ok ((), s.put s.task.s (s.task.r.push (toCell (pc s))) s.task.f w.dfa (ix "cold")) := by
    rw [exec_word w1, w2]
    simp only [action, coreAction, nest, M.bind_apply, getSt_apply, VM.at_task, rPush_apply]
    rw [wordAt_ok (w := w) (by simpa using w1)]
    simp [setIp, VM.at, VM.put, pc]
  have hself : shape s [] [] s.ds = s := by
    have := shape_setRet s (ret s)
    rw [show data s = [] from hdat, setRet_self, show ret s = [] from hret] at this
    exact this
  have hl2 : Like (s.put s.task.s (s.task.r.push (toCell (pc s))) s.task.f w.dfa (ix "cold")) (shape s [] [toCell (pc s)] s.ds) :=
    like_shape (s := s) (m := s.ds) (m' := s.ds) (l := []) (l' := []) (r := []) (r' := [toCell (pc s)]) (u := s)
      (ds := s.task.s) (rs := s.task.r.push (toCell (pc s))) (by simp) (by simp) (by simp) (by simp; omega)
      (by rw [hself]; exact .refl _) (by rw [← hdat, holding_self]; exact .refl _) (by rw [hp1]; exact .refl _) w.dfa (ix "cold")
  have gg := h.repl.region
  have hL : ∀ (X : VM) l r lo hi, X.cur = s.cur → X.wl = s.wl →
      Loaded s.refs (ix "leave") s.wl lo hi s.cur s.ds (shape X l r s.ds) := by
    intro X l r lo hi e1 e2
    exact ⟨e1, rfl, rfl, fun _ _ _ => rfl, by show Runtime _ _ X.wl; rw [e2]; exact h.repl.equipped.words,
      by show SameCode _ X.wl; rw [e2]; exact fun _ w hw => ⟨w, hw, rfl, rfl⟩⟩
  have hhalt : ∀ (X : VM) (v : Cell) (j : Fin 5), X.cur = s.cur → X.wl = s.wl → v.toNat = j.val + 1 → j ≠ 0 →
      Calling cfg n s.refs (ix "leave") s.wl (b + 10696) (b + 11496) s.cur s.ds (ix "halt") (shape X [v] [toCell (pc s)] s.ds)
        (shape (stirred X j (wh.dfa + 8)) [] [toCell (pc s)] s.ds) := by
    intro X v j e1 e2 e3 e4 _
    exact ⟨acts_halt h.place (h.uses _ (by simp)) h.tasks (hL X _ _ _ _ e1 e2) (by decide) (by simp; omega) e3
      (by rw [e1, h.first]; exact e4) hwh, hL _ _ _ _ _ e1 e2⟩
  have harr : ∀ a0 a1, Arrives cfg n s.refs (ix "leave") s.wl (b + 10696) (b + 11496) s.cur s.ds a0 a1
      ((code ix [2, "halt", 3, "halt", 4, "halt", 5, "halt", Stmt.lit (BitVec.ofNat 64 (ix "(abort)")), "handler!",
        "evaluate-input", "quit"]).place w.dfa) (shape s [] [toCell (pc s)] s.ds) fun t1 =>
        Like t1 (setRet (roused s (ix "(abort)") (wh.dfa + 8)) [toCell (pc s)]) ∧ b + 10696 ≤ pc t1 ∧ pc t1 + 16 ≤ b + 11496 ∧
        CellIs s.ds (pc t1) (ix "evaluate-input") ∧ CellIs s.ds (pc t1 + 8) (ix "quit") ∧ a0 ≤ pc t1 ∧ pc t1 + 16 ≤ a1 := by
    intro a0 a1
    steps
    refine .seq (.lit gg (by len) (by len)) (.seq (.word gg (hhalt s _ 1 rfl rfl rfl (by decide))) ?_)
    refine .seq (.lit gg (by len) (by len)) (.seq (.word gg (hhalt _ _ 2 rfl rfl rfl (by decide))) ?_)
    refine .seq (.lit gg (by len) (by len)) (.seq (.word gg (hhalt _ _ 3 rfl rfl rfl (by decide))) ?_)
    refine .seq (.lit gg (by len) (by len)) (.seq (.word gg (hhalt _ _ 4 rfl rfl rfl (by decide))) ?_)
    refine .seq (.lit gg (by len) (by len)) (.seq (.doing gg (doing_handler (h.uses _ (by simp)) (by len) (by len))) ?_)
    rw [habort, roused_eq h.first]
    have e1 := shape_setRet (roused s (ix "(abort)") (wh.dfa + 8)) [toCell (pc s)]
    rw [data_roused, show data s = [] from hdat, show (roused s (ix "(abort)") (wh.dfa + 8)).ds = s.ds from rfl] at e1
    rw [e1]
    refine Arrives.here.mono fun t1 ⟨k1, k2, k3, k4, k5, k6⟩ => ?_
    simp only [Stmt.next] at k4 k6
    exact ⟨k1, k3, by omega, k2.1, k2.2.1, k5, by omega⟩
  obtain ⟨t1, f1, f2, f3, f4, f5, f6, f7, f8⟩ := harr w.dfa _ (hL s _ _ _ _ rfl rfl) w.dfa _ w5.1 w3 (Nat.le_trans (Stmt.le_next .exit _) w4)
    (Nat.le_refl _) (Nat.le_refl _) hl2 (by simp [pc, VM.put])
  rw [Stmt.place_next] at f8
  exact ⟨_, t1, ex, f1, f2, f3, f4, f5, f6, w, w1, by omega, Nat.le_trans (by omega) f8⟩

/-- `cold` wakes the other tasks, evaluates the input and comes to the prompt. -/
theorem cold_prompt (h : RtfLoaded b ix text s) {wh : Word} (hwh : s.wl.words[ix "halt"]? = some wh)
    (hw : Works cfg n room (StillLoaded (ix "leave") (rtfRegions b) s) toks (roused s (ix "(abort)") (wh.dfa + 8)) t)
    (hd : (data t).length ≤ capacity) (hroom : room + 2 ≤ capacity) :
    ∃ s2 t1, execWord cfg (n + 1) (ix "cold") s = .ok ((), s2) ∧ Steps cfg (n + 1) s2 t1 ∧ Like t1 (afresh t) ∧ PromptAt ix s (pc t1) := by
  have hc : capacity = 64 := rfl
  obtain ⟨wq, q1, q2, q3, q4, q5⟩ := h.repl.coded _ (List.mem_of_getElem? (i := 0) rfl)
  have q6 : CellIs s.ds wq.dfa (ix "reset") := q5.1.1
  have q7 : wq.dfa + 8 ≤ b + 11496 := by
    have q8 : ((code ix [Stmt.againLoop (code ix ["receive", answerCode ix])]).place (wq.dfa + 8)).next (wq.dfa + 8) + 8 ≤ b + 11496 := q4
    have := Stmt.le_next ((code ix [Stmt.againLoop (code ix ["receive", answerCode ix])]).place (wq.dfa + 8)) (wq.dfa + 8)
    omega
  obtain ⟨s2, t1, x1, x2, x3, x4, x5, x6, x7, -⟩ := cold_leads cfg n h hwh
  have gg := h.repl.region
  have hk := h.still (t := roused s (ix "(abort)") (wh.dfa + 8)) rfl rfl rfl rfl (rtfRegions b)
  have hkt := hw.still hk
  have hL : Loaded s.refs (ix "leave") s.wl (b + 10696) (b + 11496) s.cur s.ds (setRet (roused s (ix "(abort)") (wh.dfa + 8)) [toCell (pc s)]) :=
    (hk.loaded (g := (b + 10696, b + 11496)) (by simp)).congr rfl rfl rfl
  have hdat' : data (roused s (ix "(abort)") (wh.dfa + 8)) = [] := (data_roused _ _ _).trans h.core.empty
  have harr : Arrives cfg n s.refs (ix "leave") s.wl (b + 10696) (b + 11496) s.cur s.ds (pc t1) (pc t1 + 16)
      (.seq (.word (ix "evaluate-input")) (.seq (.word (ix "quit")) .skip)) (setRet (roused s (ix "(abort)") (wh.dfa + 8)) [toCell (pc s)])
      fun u => Like u (afresh t) ∧ pc u = wq.dfa + 8 := by
    refine .seq (.word (t := setRet t [toCell (pc s)]) gg fun _ => ⟨(call_reader h.repl.reader.region h.repl.reader.uses h.repl.reader.coded
      (hw.mono fun b' hb => hb.loaded (g := (b + 9976, b + 10136)) (by simp))
        (by rw [hdat']; decide) hd (by simp; omega) ((hk.loaded (g := (b + 9976, b + 10136)) (by simp)).congr rfl rfl rfl)).1,
      (hkt.loaded (g := (b + 10696, b + 11496)) (by simp)).congr rfl rfl rfl⟩) ?_
    rw [← shape_setRet t]
    exact arrives_quit gg q1 q2 q3 q7 q6 (h.repl.uses "reset" (by simp [replUses])) (holding_self _) hd (by simp; omega)
  obtain ⟨u, f1, f2, f3⟩ := harr hL _ t1 ⟨x6, x7, trivial⟩ x4 x5 (Nat.le_refl _) (Nat.le_refl _) x3 rfl
  exact ⟨s2, u, x1, x2.trans f1, f2, wq, q1, f3⟩

end

end Verif
