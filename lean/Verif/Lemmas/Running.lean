import Verif.Lemmas.Calculator
import Verif.Lemmas.Calls

/-!
# What words defined at the prompt of the program rtf do
-/

namespace Verif
open Spec Stack

section
variable {cfg : Cfg} {n b k m d : Nat} {s s0 a : VM} {ix : String → Nat} {text tok : List Char} {V V0 : Vocabulary}
  {l l' : List Cell} {o out p0 : List Byte} {p : Recipe} {q : Stmt}

/-- The words that the user defined are there. -/
abbrev Spec.Kit.There (ix : String → Nat) (s0 s u : VM) : Prop :=
  Loaded s.refs (ix "leave") s.wl s0.ds.here s.ds.here s.cur s.ds u

theorem Spec.Kit.region (hK : Kit b ix text V m s0 s) : Region s.ds s0.ds.here s.ds.here := by
  have h1 := hK.start
  have h2 : s0.ds.here = s0.ds.start + s0.ds.len := rfl
  have h3 : s.ds.here = s.ds.start + s.ds.len := rfl
  exact ⟨by omega, by have := hK.space.inside; omega, hK.space.small⟩

theorem Spec.Sits.there (h : Sits s ix l o k p0 a) (hK : Kit b ix text V m s0 s) : Kit.There ix s0 s a :=
  ⟨h.cur, by rw [h.ds], by rw [h.ds], fun _ _ _ => by rw [h.ds], by rw [h.wl]; exact hK.compiler.runtime, fun i w hw => ⟨w, by rw [h.wl]; exact hw, rfl, rfl⟩⟩

theorem setRet_push (s : VM) (x : Cell) (l : List Cell) : setRet (setRet s l) (x :: l) = setRet s (x :: l) := by
  have : holding (holding s.task.r l) (x :: l) = holding s.task.r (x :: l) := by
    simp only [holding]
    congr 1
    funext i
    split
    · rfl
    · rename_i h
      rw [if_neg (by simp only [List.length_cons] at h; omega)]
  simp only [setRet, VM.task_setTask, VM.setTask_setTask, this]

/-- What a word that is compiled does. -/
abbrev Spec.Kit.Effects (cfg : Cfg) (n : Nat) (ix : String → Nat) (s0 s : VM) (i : Nat) (u v : VM) : Prop :=
  Acts cfg (n + 1) i u v ∧ Kit.There ix s0 s v

theorem integerToken_unique {x : List Byte} {v w : Cell} (h : IntegerToken 10 x v) (k : IntegerToken 10 x w) : v = w := by
  have e : (10 : Int) = (10 : Cell).toInt := by decide
  rw [e] at h k
  have h := (integerValue_iff 10 x v).2 h
  have k := (integerValue_iff 10 x w).2 k
  exact Option.some.inj (h.symm.trans k)

/-- The words of the calculator are found under their names at first. -/
theorem Spec.Kit.calc (hK : Kit b ix text V m s0 s) {name : String} (hn : name ∈ calcWords) (ht : Called tok name) :
    Newest s0 (utf8 tok) (some (ix name)) :=
  newest_same ht (hK.loaded.calcs name hn).1

/-- What loops keep on the return stack, above `r0`. -/
inductive Spec.Frames (r0 : List Cell) : List (Cell × Cell) → List Cell → Prop
  | nil : Frames r0 [] r0
  | cons {lim idx : Cell} {c : List (Cell × Cell)} {r : List Cell} (tok : Cell) : Frames r0 c r → Frames r0 ((lim, idx) :: c) (params lim idx ++ tok :: r)

/-- Started on a machine like `u`, the job ends in the way `e` on a machine like `v`. -/
def Spec.Brings (W : Nat → VM → VM → Prop) (j : Job) (u : VM) (e : Out) (v : VM) : Prop :=
  ∀ u1, Alike u1 u → ∃ v1, Sem W j u1 e v1 ∧ Alike v1 v

section
variable {W : Nat → VM → VM → Prop} {u v w x : VM} {p p' : Stmt} {e : Out} {f : Cell} {r : List Cell}

theorem Spec.Brings.self (h : ∀ u, Sem W (.stmt p) u e u) : Brings W (.stmt p) u e u := fun u1 k => ⟨u1, h _, k⟩

theorem Spec.Brings.seq (h1 : Brings W (.stmt p) u .normal v) (h2 : Brings W (.stmt p') v e w) : Brings W (.stmt (.seq p p')) u e w := by
  intro u1 k
  obtain ⟨v1, a1, a2⟩ := h1 u1 k
  obtain ⟨w1, b1, b2⟩ := h2 v1 a2
  exact ⟨w1, .seq a1 b1, b2⟩

theorem Spec.Brings.seqStop (h1 : Brings W (.stmt p) u e v) (he : e ≠ .normal) : Brings W (.stmt (.seq p p')) u e v := by
  intro u1 k
  obtain ⟨v1, a1, a2⟩ := h1 u1 k
  exact ⟨v1, .seqStop a1 he, a2⟩

theorem Spec.Brings.ifTrue (hd : data u = f :: l) (hf : f ≠ 0) (hl : l.length < 256) (h : Brings W (.stmt p) (setData u l) e v) :
    Brings W (.stmt (.ifThen p)) u e v := by
  intro u1 k
  obtain ⟨v1, a1, a2⟩ := h _ (k.setData hl)
  exact ⟨v1, .ifTrue (k.data.trans hd) hf a1, a2⟩

theorem Spec.Brings.ifFalse (hd : data u = 0 :: l) (hl : l.length < 256) : Brings W (.stmt (.ifThen p)) u .normal (setData u l) :=
  fun _ k => ⟨_, .ifFalse (k.data.trans hd), k.setData hl⟩

theorem Spec.Brings.elseTrue (hd : data u = f :: l) (hf : f ≠ 0) (hl : l.length < 256) (h : Brings W (.stmt p) (setData u l) e v) :
    Brings W (.stmt (.ifElse p p')) u e v := by
  intro u1 k
  obtain ⟨v1, a1, a2⟩ := h _ (k.setData hl)
  exact ⟨v1, .elseTrue (k.data.trans hd) hf a1, a2⟩

theorem Spec.Brings.elseFalse (hd : data u = 0 :: l) (hl : l.length < 256) (h : Brings W (.stmt p') (setData u l) e v) :
    Brings W (.stmt (.ifElse p p')) u e v := by
  intro u1 k
  obtain ⟨v1, a1, a2⟩ := h _ (k.setData hl)
  exact ⟨v1, .elseFalse (k.data.trans hd) a1, a2⟩

theorem Spec.Brings.untilEnd (h : Brings W (.stmt p) u .normal v) (hd : data v = f :: l) (hf : f ≠ 0) (hl : l.length < 256) :
    Brings W (.stmt (.untilLoop p)) u .normal (setData v l) := by
  intro u1 k
  obtain ⟨v1, a1, a2⟩ := h u1 k
  exact ⟨_, .untilEnd a1 (a2.data.trans hd) hf, a2.setData hl⟩

theorem Spec.Brings.untilNext (h : Brings W (.stmt p) u .normal v) (hd : data v = 0 :: l) (hl : l.length < 256)
    (h2 : Brings W (.stmt (.untilLoop p)) (setData v l) e w) : Brings W (.stmt (.untilLoop p)) u e w := by
  intro u1 k
  obtain ⟨v1, a1, a2⟩ := h u1 k
  obtain ⟨w1, b1, b2⟩ := h2 _ (a2.setData hl)
  exact ⟨_, .untilNext a1 (a2.data.trans hd) b1, b2⟩

theorem Spec.Brings.untilStop (h : Brings W (.stmt p) u e v) (he : e ≠ .normal) : Brings W (.stmt (.untilLoop p)) u e v := by
  intro u1 k
  obtain ⟨v1, a1, a2⟩ := h u1 k
  exact ⟨_, .untilStop a1 he, a2⟩

theorem Spec.Brings.againNext (h : Brings W (.stmt p) u .normal v) (h2 : Brings W (.stmt (.againLoop p)) v e w) :
    Brings W (.stmt (.againLoop p)) u e w := by
  intro u1 k
  obtain ⟨v1, a1, a2⟩ := h u1 k
  obtain ⟨w1, b1, b2⟩ := h2 _ a2
  exact ⟨_, .againNext a1 b1, b2⟩

theorem Spec.Brings.againStop (h : Brings W (.stmt p) u e v) (he : e ≠ .normal) : Brings W (.stmt (.againLoop p)) u e v := by
  intro u1 k
  obtain ⟨v1, a1, a2⟩ := h u1 k
  exact ⟨_, .againStop a1 he, a2⟩

theorem Spec.Brings.whileEnd (h : Brings W (.stmt p) u .normal v) (hd : data v = 0 :: l) (hl : l.length < 256) :
    Brings W (.stmt (.whileLoop p p')) u .normal (setData v l) := by
  intro u1 k
  obtain ⟨v1, a1, a2⟩ := h u1 k
  exact ⟨_, .whileEnd a1 (a2.data.trans hd), a2.setData hl⟩

theorem Spec.Brings.whileNext (h : Brings W (.stmt p) u .normal v) (hd : data v = f :: l) (hf : f ≠ 0) (hl : l.length < 256)
    (h2 : Brings W (.stmt p') (setData v l) .normal w) (h3 : Brings W (.stmt (.whileLoop p p')) w e x) : Brings W (.stmt (.whileLoop p p')) u e x := by
  intro u1 k
  obtain ⟨v1, a1, a2⟩ := h u1 k
  obtain ⟨w1, b1, b2⟩ := h2 _ (a2.setData hl)
  obtain ⟨x1, c1, c2⟩ := h3 _ b2
  exact ⟨_, .whileNext a1 (a2.data.trans hd) hf b1 c1, c2⟩

theorem Spec.Brings.whileStop (h : Brings W (.stmt p) u e v) (he : e ≠ .normal) : Brings W (.stmt (.whileLoop p p')) u e v := by
  intro u1 k
  obtain ⟨v1, a1, a2⟩ := h u1 k
  exact ⟨_, .whileStop a1 he, a2⟩

theorem Spec.Brings.whileStop2 (h : Brings W (.stmt p) u .normal v) (hd : data v = f :: l) (hf : f ≠ 0) (hl : l.length < 256)
    (h2 : Brings W (.stmt p') (setData v l) e w) (he : e ≠ .normal) : Brings W (.stmt (.whileLoop p p')) u e w := by
  intro u1 k
  obtain ⟨v1, a1, a2⟩ := h u1 k
  obtain ⟨w1, b1, b2⟩ := h2 _ (a2.setData hl)
  exact ⟨_, .whileStop2 a1 (a2.data.trans hd) hf b1 he, b2⟩

theorem Spec.Brings.loopNone {plus : Bool} {tok : Nat} (hd : data u = f :: f :: l) (hl : l.length < 256) :
    Brings W (.stmt (.loop true plus tok p)) u .normal (setData u l) :=
  fun _ k => ⟨_, .loopNone (k.data.trans hd), k.setData hl⟩

theorem Spec.Brings.loop {ask plus : Bool} {tok : Nat} {lim start : Cell} (hd : data u = start :: lim :: l) (ha : ask = true → start ≠ lim)
    (hr : (ret u).length + 2 < capacity) (hl : l.length < 256)
    (h : Brings W (.turn plus tok p lim start) (setRet (setData u l) (params lim start ++ BitVec.ofNat 64 tok :: ret u)) e v) :
    Brings W (.stmt (.loop ask plus tok p)) u e v := by
  intro u1 k
  have hc : capacity = 64 := rfl
  obtain ⟨v1, a1, a2⟩ := h _ ((k.setData hl).setRet (by simp [params]; omega))
  exact ⟨_, .loop (k.data.trans hd) ha (by rw [k.ret]; exact hr) (by rw [k.ret]; exact a1), a2⟩

theorem Spec.Brings.loopEnd {tok : Nat} {lim idx : Cell} (h : Brings W (.stmt p) u .normal v) (hr : ret v = params lim idx ++ BitVec.ofNat 64 tok :: r)
    (he : idx + 1 = lim) (hl : r.length < 256) : Brings W (.turn false tok p lim idx) u .normal (setRet v r) := by
  intro u1 k
  obtain ⟨v1, a1, a2⟩ := h u1 k
  exact ⟨_, .loopEnd a1 (a2.ret.trans hr) he, a2.setRet hl⟩

theorem Spec.Brings.loopNext {tok : Nat} {lim idx : Cell} (h : Brings W (.stmt p) u .normal v) (hr : ret v = params lim idx ++ BitVec.ofNat 64 tok :: r)
    (he : idx + 1 ≠ lim) (hl : r.length + 3 < 256)
    (h2 : Brings W (.turn false tok p lim (idx + 1)) (setRet v (params lim (idx + 1) ++ BitVec.ofNat 64 tok :: r)) e w) :
    Brings W (.turn false tok p lim idx) u e w := by
  intro u1 k
  obtain ⟨v1, a1, a2⟩ := h u1 k
  obtain ⟨w1, b1, b2⟩ := h2 _ (a2.setRet (by simp [params]; omega))
  exact ⟨_, .loopNext a1 (a2.ret.trans hr) he b1, b2⟩

theorem Spec.Brings.plusEnd {tok : Nat} {lim idx : Cell} (h : Brings W (.stmt p) u .normal v) (hr : ret v = params lim idx ++ BitVec.ofNat 64 tok :: r)
    (hd : data v = f :: l) (he : Crosses lim idx f) (hl : r.length < 256) (hl2 : l.length < 256) :
    Brings W (.turn true tok p lim idx) u .normal (setRet (setData v l) r) := by
  intro u1 k
  obtain ⟨v1, a1, a2⟩ := h u1 k
  exact ⟨_, .plusEnd a1 (a2.ret.trans hr) (a2.data.trans hd) he, (a2.setData hl2).setRet hl⟩

theorem Spec.Brings.plusNext {tok : Nat} {lim idx : Cell} (h : Brings W (.stmt p) u .normal v) (hr : ret v = params lim idx ++ BitVec.ofNat 64 tok :: r)
    (hd : data v = f :: l) (he : ¬Crosses lim idx f) (hl : r.length + 3 < 256) (hl2 : l.length < 256)
    (h2 : Brings W (.turn true tok p lim (idx + f)) (setRet (setData v l) (params lim (idx + f) ++ BitVec.ofNat 64 tok :: r)) e w) :
    Brings W (.turn true tok p lim idx) u e w := by
  intro u1 k
  obtain ⟨v1, a1, a2⟩ := h u1 k
  obtain ⟨w1, b1, b2⟩ := h2 _ ((a2.setData hl2).setRet (by simp [params]; omega))
  exact ⟨_, .plusNext a1 (a2.ret.trans hr) (a2.data.trans hd) he b1, b2⟩

theorem Spec.Brings.loopLeave {plus : Bool} {tok : Nat} {lim idx : Cell} (h : Brings W (.stmt p) u .leave v)
    (hr : ret v = params lim idx ++ BitVec.ofNat 64 tok :: r) (hc : Calm v.task.r) (hl : r.length ≤ capacity) :
    Brings W (.turn plus tok p lim idx) u .normal (setRet v r) := by
  intro u1 k
  have hcap : capacity = 64 := rfl
  obtain ⟨v1, a1, a2⟩ := h u1 k
  refine ⟨_, .loopLeave a1 (a2.ret.trans hr) hl ?_, a2.setRet (by omega)⟩
  obtain ⟨ds, rs, fs, -, k2, -, rfl⟩ := a2
  rw [VM.task_setTask]
  show rs.inner 255 = rs.canary
  rw [k2.slots 255 (.inr (by decide)), k2.canary, hc.under]

theorem Spec.Brings.loopStop {plus : Bool} {tok : Nat} {lim idx : Cell} (h : Brings W (.stmt p) u e v) (h1 : e ≠ .normal) (h2 : e ≠ .leave) :
    Brings W (.turn plus tok p lim idx) u e v := by
  intro u1 k
  obtain ⟨v1, a1, a2⟩ := h u1 k
  exact ⟨_, .loopStop a1 h1 h2, a2⟩

end

theorem Spec.Brings.to {W : Nat → VM → VM → Prop} {j : Job} {u v w : VM} {e : Out} (h : Brings W j u e v) (k : Alike v w) : Brings W j u e w := by
  intro u1 k1
  obtain ⟨v1, a1, a2⟩ := h u1 k1
  exact ⟨v1, a1, a2.trans k⟩

theorem Spec.Brings.of {W : Nat → VM → VM → Prop} {j : Job} {u v w : VM} {e : Out} (h : Brings W j u e v) (k : Alike w u) : Brings W j w e v :=
  fun u1 k1 => h u1 (k1.trans k)

theorem Spec.Kit.Effects.brings {i : Nat} {u v : VM} (h : Kit.Effects cfg n ix s0 s i u v) :
    Brings (Kit.Effects cfg n ix s0 s) (.stmt (.word i)) u .normal v :=
  fun _ k => ⟨v, .word ⟨fun s1 hl hp => h.1 s1 (hl.trans k.like) hp, h.2⟩, .refl _⟩

/-- The recipe of a chore. -/
def Spec.Chore.recipe : Chore → Recipe
  | .body p => p
  | .turn _ p _ _ => p

/-- The chore as it is compiled. -/
def Spec.Chore.job (q : Stmt) (tok : Nat) : Chore → Job
  | .body _ => .stmt q
  | .turn plus _ lim idx => .turn plus tok q lim idx

/-- What is on the return stack when the chore begins. -/
def Spec.Chore.stack (tok : Nat) (r : List Cell) : Chore → List Cell
  | .body _ => r
  | .turn _ _ lim idx => params lim idx ++ BitVec.ofNat 64 tok :: r

/-- What is on the return stack in the end. -/
def Spec.Out.rest (r0 r : List Cell) : Out → List Cell
  | .exit => r0
  | _ => r

theorem Spec.Frames.length {r0 r : List Cell} {c : List (Cell × Cell)} (h : Frames r0 c r) : r.length = r0.length + 3 * c.length := by
  induction h with
  | nil => rfl
  | cons tok _ ih => simp only [params, List.length_append, List.length_cons, List.length_nil]; omega

theorem Spec.Kit.loopWord (hK : Kit b ix text V m s0 s) {name : String} (hn : name ∈ loopWords) : Builtin s.wl (ix name) name :=
  hK.builtin (hK.loaded.workshop.loops name hn).2.1

/-- `exit` out of loops. -/
theorem exit_brings (hK : Kit b ix text V m s0 s) (h : Sits s ix l o k p0 a) {r0 r : List Cell} {c : List (Cell × Cell)} (hF : Frames r0 c r) (hr : r.length ≤ capacity) :
    ∀ x, Brings (Kit.Effects cfg n ix s0 s) (.stmt ((exitCode ix c.length).place x)) (setRet a r) .exit (setRet a r0) := by
  have hc : capacity = 64 := rfl
  induction hF with
  | nil => intro x; exact .self fun _ => .exit
  | @cons lim idx c r tok hF ih =>
    intro x
    simp only [params, List.length_append, List.length_cons, List.length_nil] at hr
    refine .seq (v := setRet a r) ?_ (ih (by omega) _)
    obtain ⟨w, w1, w2⟩ := hK.loopWord (name := "unloop") (by simp [loopWords])
    have h2 := h.setRet (r := params lim idx ++ tok :: r) (by simp [params]; omega)
    have := Kit.Effects.brings (basic_acts (cfg := cfg) (n := n) hK.region (h2.there hK)
      (.unloop (l := r) w1 w2 (by rw [ret_setRet (by simp [params]; omega)]; rfl)))
    exact this.to (alike_ret a (by simp [params]; omega) (by omega))

/-- A body or a loop of a definition does what it says. -/
theorem running {S : Scope} {cs : List (Cell × Cell)} {ch : Chore} {e : Out} (hK : Kit b ix text V0 m s0 s) (hR : Runs S cs ch l e l' out) :
    ∀ {newer : Vocabulary} {g : Nat} {q : Stmt} {o : List Byte} {a : VM}, V0 = newer ++ S.words →
      (∀ p, S.self = some p → ∃ w q', Spec.Entry ix s0 s S.words p g w q') → Turned ix s0 S.words g ch.recipe q → Sits s ix l o k p0 a →
      ∃ t, Sits s ix l' (o ++ out) k p0 t ∧ feed t = feed a ∧ t.task.st = a.task.st ∧ ∀ r0 r : List Cell, Frames r0 cs r → ∀ tok : Nat,
        (ch.stack tok r).length + S.room + 4 ≤ capacity → ∀ c : Nat,
        Brings (Kit.Effects cfg n ix s0 s) (ch.job (q.place c) tok) (setRet a (ch.stack tok r)) e (setRet t (e.rest r0 r)) := by
  have hc : capacity = 64 := rfl
  have hset : ∀ (u : VM) (l1 : List Cell), feed (setData u l1) = feed u ∧ (setData u l1).task.st = u.task.st := by
    intro u l1
    have : (setData u l1).task = { u.task with s := holding u.task.s l1 } := VM.task_setTask u _
    rw [feed, feed, this]; exact ⟨rfl, rfl⟩
  have hlen : ∀ {l1 : List Cell} {o1 : List Byte} {u : VM}, Sits s ix l1 o1 k p0 u → l1.length ≤ capacity := by
    intro l1 o1 u h
    have := h.calm.1.depth
    rw [← h.data]; exact this
  have hprm : ∀ (lim idx : Cell) (tok : Nat) (r : List Cell), (params lim idx ++ BitVec.ofNat 64 tok :: r).length = r.length + 3 := by
    intro lim idx tok r; simp [params]
  -- a call of a word that the user defined
  have hcall : ∀ {older : Vocabulary} {p : Recipe} {d i : Nat} {w : Word} {q' : Stmt} {e : Out} {o1 o2 : List Byte} {l1 l2 : List Cell} {a t : VM}
      {r : List Cell}, Spec.Entry ix s0 s older p i w q' → Sits s ix l1 o1 k p0 a → Sits s ix l2 o2 k p0 t → e = .normal ∨ e = .exit →
      r.length + (d + 1) + 4 ≤ capacity → (∀ r0 r : List Cell, Frames r0 [] r → ∀ tok : Nat,
        ((Chore.body p).stack tok r).length + d + 4 ≤ capacity → ∀ c : Nat,
        Brings (Kit.Effects cfg n ix s0 s) ((Chore.body p).job (q'.place c) tok) (setRet a ((Chore.body p).stack tok r)) e (setRet t (e.rest r0 r))) →
      Kit.Effects cfg n ix s0 s i (setRet a r) (setRet t r) := by
    intro older p d i w q' e o1 o2 l1 l2 a t r e2 h ht he hr t4
    have h2 := h.setRet (r := r) (by omega)
    have hr2 : ret (setRet a r) = r := ret_setRet (by omega)
    refine call_colon hK.region (fun _ _ _ _ k => k) e2.word e2.nest e2.lower e2.upper e2.code (h2.there hK) (by rw [hr2]; omega) fun x => ?_
    have hx : (x :: r).length + d + 4 ≤ capacity := by simp only [List.length_cons]; omega
    obtain ⟨v1, a1, a2⟩ := t4 (x :: r) (x :: r) .nil 0 hx w.dfa _ (.refl _)
    have e0 : e.rest (x :: r) (x :: r) = x :: r := by rcases he with rfl | rfl <;> rfl
    rw [e0] at a2
    refine ⟨v1, r, ?_, a2.ret.trans (ret_setRet (by omega)), ?_⟩
    · rw [hr2, setRet_push]
      rcases he with rfl | rfl
      · exact .seq a1 .exit
      · exact .seqStop a1 (by simp)
    · exact ((a2.setRet (l := r) (by omega)).trans (alike_ret t (by omega) (by omega))).symm
  induction hR with
  | skip =>
    intro newer g q o a _ _ hT h
    cases hT
    exact ⟨a, by rw [List.append_nil]; exact h, rfl, rfl, fun r0 r _ _ _ c => .self fun _ => .skip⟩
  | @basic V g d c t l l' out hu hl hl' hC =>
    intro newer g q o a hV _ hT h
    cases hT with
    | token hM =>
    rcases hC.does (cfg := cfg) (n := n) hK h hl hl' with ⟨v, hn, hv, rfl, rfl⟩ | ⟨name, h1, h2, u, u1, u2, u3, u4⟩
    · cases hM with
      | @integer v' _ _ hv' =>
        obtain rfl := integerToken_unique hv hv'
        have := hset a (v :: l)
        refine ⟨setData a (v :: l), by rw [List.append_nil]; exact h.setData (by omega), this.1, this.2, fun r0 r _ tok hr c => ?_⟩
        have hd : data (setRet a r) = l := (setRet_data a r).trans h.data
        intro u1 ku
        have hd1 := ku.data.trans hd
        refine ⟨_, .lit (by rw [hd1]; omega), ?_⟩
        rw [hd1]
        show Alike _ (setRet (setData a (v :: l)) r)
        rw [setRet_setData]
        exact ku.setData (by simp only [List.length_cons]; omega)
      | word h1 h2 _ => exact absurd h2 (hn _ (calcWords_rtf _ h1))
      | user h1 _ h2 => exact absurd h2 (hu _ (by cases h1; simp))
    · have key : q = .word (ix name) := by
        cases hM with
        | integer hn => exact absurd h2 (hn _ (calcWords_rtf _ h1))
        | word k1 k2 _ => rw [Option.some.inj (C20_unique (hK.calc k1 k2) (hK.calc h1 h2))]
        | user k1 _ k2 => exact absurd k2 (hu _ (by cases k1; simp))
      subst key
      refine ⟨u, u2, u3, u4, fun r0 r _ tok hr c => ?_⟩
      have hr : r.length + d + 4 ≤ capacity := hr
      exact Kit.Effects.brings ⟨u1 r (by omega), (u2.setRet (r := r) (by omega)).there hK⟩
  | @call newer' older g d c t name p e l l' out hu hs hl hl' _ he ih =>
    intro newer g q o a hV _ hT h
    obtain ⟨w, q', -, e2⟩ := hK.entries (newer ++ newer') name p older (by rw [hV, List.append_assoc])
    have key : q = .word (s0.wl.words.length + older.length) := by
      cases hT with
      | token hM =>
      cases hM with
      | integer _ hn => exact absurd hs (hn (name, p) (by simp))
      | word _ _ hn => exact absurd hs (hn (name, p) (by simp))
      | user k1 k2 k3 => rw [split_unique k1 hu k2 hs k3]
    subst key
    obtain ⟨t, t1, t2, t3, t4⟩ := ih (newer := newer ++ newer' ++ [(name, p)]) (by rw [hV]; simp) (fun p' hp => by cases hp; exact ⟨w, q', e2⟩) e2.turned h
    exact ⟨t, t1, t2, t3, fun r0 r _ tok hr c => Kit.Effects.brings (hcall e2 h t1 he hr t4)⟩
  | @recurse V p d c e l l' out hl hl' _ he ih =>
    intro newer g q o a hV hself hT h
    cases hT
    obtain ⟨w, q', e2⟩ := hself p rfl
    obtain ⟨t, t1, t2, t3, t4⟩ := ih hV (fun p' hp => by cases hp; exact ⟨w, q', e2⟩) e2.turned h
    exact ⟨t, t1, t2, t3, fun r0 r _ tok hr c => Kit.Effects.brings (hcall e2 h t1 he hr t4)⟩
  | @index S lim idx c l hl =>
    intro newer g q o a hV _ hT h
    cases hT
    refine ⟨setData a (idx :: l), by rw [List.append_nil]; exact h.setData (by simp only [List.length_cons]; omega), (hset _ _).1, (hset _ _).2, fun r0 r hF tok hr c => ?_⟩
    cases hF with
    | @cons _ _ _ r z hF =>
    obtain ⟨w, w1, w2⟩ := hK.loopWord (name := "i") (by simp [loopWords])
    have hr : (params lim idx ++ z :: r).length + S.room + 4 ≤ capacity := hr
    have h2 := h.setRet (r := params lim idx ++ z :: r) (by omega)
    have := Kit.Effects.brings (basic_acts (cfg := cfg) (n := n) hK.region (h2.there hK)
      (.index (lim := lim) (idx := idx) (l := z :: r) w1 w2 (ret_setRet (by omega)) (by rw [h2.data]; omega)))
    rw [h2.data, ← setRet_setData] at this
    exact this
  | @outer S lim idx x c l hl =>
    intro newer g q o a hV _ hT h
    cases hT
    refine ⟨setData a (idx :: l), by rw [List.append_nil]; exact h.setData (by simp only [List.length_cons]; omega), (hset _ _).1, (hset _ _).2, fun r0 r hF tok hr c => ?_⟩
    cases hF with
    | @cons lim' idx' _ r z hF =>
    cases hF with
    | @cons _ _ _ r z' hF =>
    obtain ⟨w, w1, w2⟩ := hK.loopWord (name := "j") (by simp [loopWords])
    have hr : (params lim' idx' ++ z :: (params lim idx ++ z' :: r)).length + S.room + 4 ≤ capacity := hr
    have h2 := h.setRet (r := params lim' idx' ++ z :: (params lim idx ++ z' :: r)) (by omega)
    have := Kit.Effects.brings (basic_acts (cfg := cfg) (n := n) hK.region (h2.there hK)
      (.outer (lim := lim) (idx := idx) (l := z' :: r) w1 w2 (ret_setRet (by omega)) (by rw [h2.data]; omega)))
    rw [h2.data, ← setRet_setData] at this
    exact this
  | leave =>
    intro newer g q o a _ _ hT h
    cases hT
    exact ⟨a, by rw [List.append_nil]; exact h, rfl, rfl, fun r0 r _ _ _ c => .self fun _ => .leave⟩
  | @exit S c l =>
    intro newer g q o a _ _ hT h
    cases hT
    exact ⟨a, by rw [List.append_nil]; exact h, rfl, rfl, fun r0 r hF tok hr x => exit_brings hK h hF
      (by have : r.length + S.room + 4 ≤ capacity := hr; omega) x⟩
  | @seq S c p p' e l l1 l' x y _ _ ih1 ih2 =>
    intro newer g q o a hV hself hT h
    cases hT with
    | seq hT1 hT2 =>
    obtain ⟨t, t1, t2, t3, t4⟩ := ih1 hV hself hT1 h
    obtain ⟨u, u1, u2, u3, u4⟩ := ih2 hV hself hT2 t1
    exact ⟨u, by rw [← List.append_assoc]; exact u1, u2.trans t2, u3.trans t3, fun r0 r hF tok hr c => .seq (t4 r0 r hF tok hr _) (u4 r0 r hF tok hr _)⟩
  | @seqStop S c p p' e l l' x _ he ih =>
    intro newer g q o a hV hself hT h
    cases hT with
    | seq hT1 hT2 =>
    obtain ⟨t, t1, t2, t3, t4⟩ := ih hV hself hT1 h
    exact ⟨t, t1, t2, t3, fun r0 r hF tok hr c => .seqStop (t4 r0 r hF tok hr _) he⟩
  | @ifTrue S c p e f l l' x hf _ ih =>
    intro newer g q o a hV hself hT h
    cases hT with
    | ifThen hT =>
    have hl := hlen h
    simp only [List.length_cons] at hl
    obtain ⟨t, t1, t2, t3, t4⟩ := ih hV hself hT (h.setData (l' := l) (by omega))
    refine ⟨t, t1, t2.trans (hset _ _).1, t3.trans (hset _ _).2, fun r0 r hF tok hr c => .ifTrue ((setRet_data _ _).trans h.data) hf (by omega) ?_⟩
    rw [← setRet_setData]; exact t4 r0 r hF tok hr _
  | @ifFalse S c p l =>
    intro newer g q o a hV hself hT h
    cases hT with
    | ifThen hT =>
    have hl := hlen h
    simp only [List.length_cons] at hl
    refine ⟨setData a l, by rw [List.append_nil]; exact h.setData (by omega), (hset _ _).1, (hset _ _).2, fun r0 r hF tok hr c => ?_⟩
    rw [setRet_setData]; exact .ifFalse ((setRet_data _ _).trans h.data) (by omega)
  | @elseTrue S c p p' e f l l' x hf _ ih =>
    intro newer g q o a hV hself hT h
    cases hT with
    | ifElse hT1 hT2 =>
    have hl := hlen h
    simp only [List.length_cons] at hl
    obtain ⟨t, t1, t2, t3, t4⟩ := ih hV hself hT1 (h.setData (l' := l) (by omega))
    refine ⟨t, t1, t2.trans (hset _ _).1, t3.trans (hset _ _).2, fun r0 r hF tok hr c => .elseTrue ((setRet_data _ _).trans h.data) hf (by omega) ?_⟩
    rw [← setRet_setData]; exact t4 r0 r hF tok hr _
  | @elseFalse S c p p' e l l' x _ ih =>
    intro newer g q o a hV hself hT h
    cases hT with
    | ifElse hT1 hT2 =>
    have hl := hlen h
    simp only [List.length_cons] at hl
    obtain ⟨t, t1, t2, t3, t4⟩ := ih hV hself hT2 (h.setData (l' := l) (by omega))
    refine ⟨t, t1, t2.trans (hset _ _).1, t3.trans (hset _ _).2, fun r0 r hF tok hr c => .elseFalse ((setRet_data _ _).trans h.data) (by omega) ?_⟩
    rw [← setRet_setData]; exact t4 r0 r hF tok hr _
  | @untilEnd S c p f l l' x _ hf ih =>
    intro newer g q o a hV hself hT h
    cases hT with
    | untilLoop hT =>
    obtain ⟨t, t1, t2, t3, t4⟩ := ih hV hself hT h
    have hl := hlen t1
    simp only [List.length_cons] at hl
    refine ⟨setData t l', t1.setData (by omega), (hset _ _).1.trans t2, (hset _ _).2.trans t3, fun r0 r hF tok hr c => ?_⟩
    rw [setRet_setData]; exact .untilEnd (t4 r0 r hF tok hr _) ((setRet_data _ _).trans t1.data) hf (by omega)
  | @untilNext S c p e l l1 l' x y _ _ ih1 ih2 =>
    intro newer g q o a hV hself hT h
    have hT0 := hT
    cases hT with
    | untilLoop hT =>
    obtain ⟨t, t1, t2, t3, t4⟩ := ih1 hV hself hT h
    have hl := hlen t1
    simp only [List.length_cons] at hl
    obtain ⟨u, u1, u2, u3, u4⟩ := ih2 hV hself hT0 (t1.setData (l' := l1) (by omega))
    refine ⟨u, by rw [← List.append_assoc]; exact u1, u2.trans ((hset _ _).1.trans t2), u3.trans ((hset _ _).2.trans t3), fun r0 r hF tok hr c => ?_⟩
    refine .untilNext (t4 r0 r hF tok hr _) ((setRet_data _ _).trans t1.data) (by omega) ?_
    have := u4 r0 r hF tok hr c
    rwa [setRet_setData] at this
  | @untilStop S c p e l l' x _ he ih =>
    intro newer g q o a hV hself hT h
    cases hT with
    | untilLoop hT =>
    obtain ⟨t, t1, t2, t3, t4⟩ := ih hV hself hT h
    exact ⟨t, t1, t2, t3, fun r0 r hF tok hr c => .untilStop (t4 r0 r hF tok hr _) he⟩
  | @againNext S c p e l l1 l' x y _ _ ih1 ih2 =>
    intro newer g q o a hV hself hT h
    have hT0 := hT
    cases hT with
    | againLoop hT =>
    obtain ⟨t, t1, t2, t3, t4⟩ := ih1 hV hself hT h
    obtain ⟨u, u1, u2, u3, u4⟩ := ih2 hV hself hT0 t1
    exact ⟨u, by rw [← List.append_assoc]; exact u1, u2.trans t2, u3.trans t3,
      fun r0 r hF tok hr c => .againNext (t4 r0 r hF tok hr _) (u4 r0 r hF tok hr c)⟩
  | @againStop S c p e l l' x _ he ih =>
    intro newer g q o a hV hself hT h
    cases hT with
    | againLoop hT =>
    obtain ⟨t, t1, t2, t3, t4⟩ := ih hV hself hT h
    exact ⟨t, t1, t2, t3, fun r0 r hF tok hr c => .againStop (t4 r0 r hF tok hr _) he⟩
  | @whileEnd S c p p' l l' x _ ih =>
    intro newer g q o a hV hself hT h
    cases hT with
    | whileLoop hT1 hT2 =>
    obtain ⟨t, t1, t2, t3, t4⟩ := ih hV hself hT1 h
    have hl := hlen t1
    simp only [List.length_cons] at hl
    refine ⟨setData t l', t1.setData (by omega), (hset _ _).1.trans t2, (hset _ _).2.trans t3, fun r0 r hF tok hr c => ?_⟩
    rw [setRet_setData]; exact .whileEnd (t4 r0 r hF tok hr _) ((setRet_data _ _).trans t1.data) (by omega)
  | @whileNext S c p p' e f l l1 l2 l' x y z _ hf _ _ ih1 ih2 ih3 =>
    intro newer g q o a hV hself hT h
    have hT0 := hT
    cases hT with
    | whileLoop hT1 hT2 =>
    obtain ⟨t, t1, t2, t3, t4⟩ := ih1 hV hself hT1 h
    have hl := hlen t1
    simp only [List.length_cons] at hl
    obtain ⟨u, u1, u2, u3, u4⟩ := ih2 hV hself hT2 (t1.setData (l' := l1) (by omega))
    obtain ⟨v, v1, v2, v3, v4⟩ := ih3 hV hself hT0 u1
    refine ⟨v, by rw [← List.append_assoc, ← List.append_assoc]; exact v1, v2.trans (u2.trans ((hset _ _).1.trans t2)),
      v3.trans (u3.trans ((hset _ _).2.trans t3)), fun r0 r hF tok hr c => ?_⟩
    refine .whileNext (t4 r0 r hF tok hr _) ((setRet_data _ _).trans t1.data) hf (by omega) ?_ (v4 r0 r hF tok hr c)
    rw [← setRet_setData]; exact u4 r0 r hF tok hr _
  | @whileStop S c p p' e l l' x _ he ih =>
    intro newer g q o a hV hself hT h
    cases hT with
    | whileLoop hT1 hT2 =>
    obtain ⟨t, t1, t2, t3, t4⟩ := ih hV hself hT1 h
    exact ⟨t, t1, t2, t3, fun r0 r hF tok hr c => .whileStop (t4 r0 r hF tok hr _) he⟩
  | @whileStop2 S c p p' e f l l1 l' x y _ hf _ he ih1 ih2 =>
    intro newer g q o a hV hself hT h
    cases hT with
    | whileLoop hT1 hT2 =>
    obtain ⟨t, t1, t2, t3, t4⟩ := ih1 hV hself hT1 h
    have hl := hlen t1
    simp only [List.length_cons] at hl
    obtain ⟨u, u1, u2, u3, u4⟩ := ih2 hV hself hT2 (t1.setData (l' := l1) (by omega))
    refine ⟨u, by rw [← List.append_assoc]; exact u1, u2.trans ((hset _ _).1.trans t2), u3.trans ((hset _ _).2.trans t3), fun r0 r hF tok hr c => ?_⟩
    refine .whileStop2 (t4 r0 r hF tok hr _) ((setRet_data _ _).trans t1.data) hf (by omega) ?_ he
    rw [← setRet_setData]; exact u4 r0 r hF tok hr _
  | @none S c plus p x l =>
    intro newer g q o a hV hself hT h
    cases hT with
    | counted hT =>
    have hl := hlen h
    simp only [List.length_cons] at hl
    refine ⟨setData a l, by rw [List.append_nil]; exact h.setData (by omega), (hset _ _).1, (hset _ _).2, fun r0 r hF tok hr c => ?_⟩
    rw [setRet_setData]; exact .loopNone ((setRet_data _ _).trans h.data) (by omega)
  | @loop V g' d c ask plus p e lim start l l' x ha _ ih =>
    intro newer g q o a hV hself hT h
    cases hT with
    | counted hT =>
    have hl := hlen h
    simp only [List.length_cons] at hl
    obtain ⟨t, t1, t2, t3, t4⟩ := ih hV hself hT (h.setData (l' := l) (by omega))
    refine ⟨t, t1, t2.trans (hset _ _).1, t3.trans (hset _ _).2, fun r0 r hF tok hr x => ?_⟩
    have hr : r.length + (d + 3) + 4 ≤ capacity := hr
    have hr2 : ret (setRet a r) = r := ret_setRet (by omega)
    show Brings _ _ (setRet a r) _ _
    refine .loop ((setRet_data _ _).trans h.data) ha (by rw [hr2]; omega) (by omega) ?_
    rw [hr2]
    have := t4 r0 r hF (x + 8) (by have := hprm lim start (x + 8) r; show (params lim start ++ BitVec.ofNat 64 (x + 8) :: r).length + d + 4 ≤ _; rw [this]; omega) (x + 16)
    refine this.of ?_
    show Alike _ (setRet (setData a l) (params lim start ++ BitVec.ofNat 64 (x + 8) :: r))
    rw [← setRet_setData]
    exact alike_ret _ (by omega) (by rw [hprm]; omega)
  | @loopEnd S c p lim idx l l' x _ he ih =>
    intro newer g q o a hV hself hT h
    obtain ⟨t, t1, t2, t3, t4⟩ := ih hV hself hT h
    refine ⟨t, t1, t2, t3, fun r0 r hF tok hr x => ?_⟩
    have hr : (params lim idx ++ BitVec.ofNat 64 tok :: r).length + S.room + 4 ≤ capacity := hr
    have hp := hprm lim idx tok r
    have b4 : Brings _ _ _ _ (setRet t (params lim idx ++ BitVec.ofNat 64 tok :: r)) := t4 r0 _ (.cons _ hF) 0 hr x
    exact (Brings.loopEnd b4 (ret_setRet (by omega)) he (by omega)).to (alike_ret t (by omega) (by omega))
  | @loopNext S c p e lim idx l l1 l' x y _ he _ ih1 ih2 =>
    intro newer g q o a hV hself hT h
    obtain ⟨t, t1, t2, t3, t4⟩ := ih1 hV hself hT h
    obtain ⟨u, u1, u2, u3, u4⟩ := ih2 hV hself hT t1
    refine ⟨u, by rw [← List.append_assoc]; exact u1, u2.trans t2, u3.trans t3, fun r0 r hF tok hr x => ?_⟩
    have hr : (params lim idx ++ BitVec.ofNat 64 tok :: r).length + S.room + 4 ≤ capacity := hr
    have hp := hprm lim idx tok r
    have hp2 := hprm lim (idx + 1) tok r
    have b4 : Brings _ _ _ _ (setRet t (params lim idx ++ BitVec.ofNat 64 tok :: r)) := t4 r0 _ (.cons _ hF) 0 hr x
    refine Brings.loopNext b4 (ret_setRet (by omega)) he (by omega) ?_
    exact (u4 r0 r hF tok (by show (params lim (idx + 1) ++ BitVec.ofNat 64 tok :: r).length + _ + _ ≤ _; omega) x).of (alike_ret t (by omega) (by omega))
  | @plusEnd S c p lim idx f l l' x _ he ih =>
    intro newer g q o a hV hself hT h
    obtain ⟨t, t1, t2, t3, t4⟩ := ih hV hself hT h
    have hl := hlen t1
    simp only [List.length_cons] at hl
    refine ⟨setData t l', t1.setData (by omega), (hset _ _).1.trans t2, (hset _ _).2.trans t3, fun r0 r hF tok hr x => ?_⟩
    have hr : (params lim idx ++ BitVec.ofNat 64 tok :: r).length + S.room + 4 ≤ capacity := hr
    have hp := hprm lim idx tok r
    have b4 : Brings _ _ _ _ (setRet t (params lim idx ++ BitVec.ofNat 64 tok :: r)) := t4 r0 _ (.cons _ hF) 0 hr x
    refine (Brings.plusEnd b4 (ret_setRet (by omega)) ((setRet_data _ _).trans t1.data) he (by omega) (by omega)).to ?_
    rw [← setRet_setData]
    exact alike_ret _ (by omega) (by omega)
  | @plusNext S c p e lim idx f l l1 l' x y _ he _ ih1 ih2 =>
    intro newer g q o a hV hself hT h
    obtain ⟨t, t1, t2, t3, t4⟩ := ih1 hV hself hT h
    have hl := hlen t1
    simp only [List.length_cons] at hl
    obtain ⟨u, u1, u2, u3, u4⟩ := ih2 hV hself hT (t1.setData (l' := l1) (by omega))
    refine ⟨u, by rw [← List.append_assoc]; exact u1, u2.trans ((hset _ _).1.trans t2), u3.trans ((hset _ _).2.trans t3), fun r0 r hF tok hr x => ?_⟩
    have hr : (params lim idx ++ BitVec.ofNat 64 tok :: r).length + S.room + 4 ≤ capacity := hr
    have hp := hprm lim idx tok r
    have hp2 := hprm lim (idx + f) tok r
    have b4 : Brings _ _ _ _ (setRet t (params lim idx ++ BitVec.ofNat 64 tok :: r)) := t4 r0 _ (.cons _ hF) 0 hr x
    refine Brings.plusNext b4 (ret_setRet (by omega)) ((setRet_data _ _).trans t1.data) he (by omega) (by omega) ?_
    refine (u4 r0 r hF tok (by show (params lim (idx + f) ++ BitVec.ofNat 64 tok :: r).length + _ + _ ≤ _; omega) x).of ?_
    rw [← setRet_setData]
    exact alike_ret _ (by omega) (by omega)
  | @loopLeave S c plus p lim idx l l' x _ ih =>
    intro newer g q o a hV hself hT h
    obtain ⟨t, t1, t2, t3, t4⟩ := ih hV hself hT h
    refine ⟨t, t1, t2, t3, fun r0 r hF tok hr x => ?_⟩
    have hr : (params lim idx ++ BitVec.ofNat 64 tok :: r).length + S.room + 4 ≤ capacity := hr
    have hp := hprm lim idx tok r
    have b4 : Brings _ _ _ _ (setRet t (params lim idx ++ BitVec.ofNat 64 tok :: r)) := t4 r0 _ (.cons _ hF) 0 hr x
    exact (Brings.loopLeave b4 (ret_setRet (by omega)) (t1.setRet (by omega)).calm.2.1 (by omega)).to
      (alike_ret t (by omega) (by omega))
  | @loopExit S c plus p lim idx l l' x _ ih =>
    intro newer g q o a hV hself hT h
    obtain ⟨t, t1, t2, t3, t4⟩ := ih hV hself hT h
    refine ⟨t, t1, t2, t3, fun r0 r hF tok hr x => ?_⟩
    exact Brings.loopStop (t4 r0 _ (.cons _ hF) 0 hr x) (by simp) (by simp)

/-- A token at the prompt. -/
theorem Spec.Runs.evaluates (hR : Runs (prompt V) [] (.body (.token tok)) l .normal l' out) (hK : Kit b ix text V m s0 s) (h : Sits s ix l o k p0 a)
    (ht : a.tkn = some tok) : ∃ c, Evaluates cfg (n + 1) 54 a c ∧ Sits s ix l' (o ++ out) k p0 c ∧ c.task.inbuf = a.task.inbuf ∧ c.task.st = a.task.st := by
  have hc : capacity = 64 := rfl
  have hn : nesting = 50 := rfl
  have hR' := hR
  generalize hd : nesting = d at hR'
  cases hR' with
  | basic hu hl hl' hC => exact hC.evaluates hK hu h ht hl hl' (by omega)
  | @call newer older g d _ _ name p _ _ _ _ hu hs hl hl' _ _ =>
    obtain ⟨w, q', e1, e2⟩ := hK.entries newer name p older rfl
    have e1 := newest_same hs (e1 (hu.same hs))
    obtain ⟨t, t1, t2, t3, t4⟩ := running (cfg := cfg) (n := n) hK hR (newer := []) (g := 0) rfl nofun
      (.token (.user (e := (name, p)) rfl hu hs)) h
    refine ⟨t, C64_word (w := w) (h.dict hK) (h.inSpace hK) ht (h.newest e1) (by rw [h.wl]; exact e2.word) (by rw [h.mode]; exact e2.open_)
      (fun r hr => ?_) (by rw [t1.error, h.error]) (by rw [t1.data]; omega) t1.calm, t1, congrArg Prod.fst t2, t3⟩
    have key : ∀ {j : Job} {u v : VM} {out : Out}, Sem (Kit.Effects cfg n ix s0 s) j u out v → j = .stmt (.word (s0.wl.words.length + older.length)) → out = .normal →
        Acts cfg (n + 1) (s0.wl.words.length + older.length) u v := by
      intro j u v out h h1 h2
      cases h with
      | word h => cases h1; exact h.1
      | call => cases h2
      | _ => cases h1
    have hr' : r.length + nesting + 4 ≤ capacity := by omega
    obtain ⟨v1, a1, a2⟩ := t4 r r .nil 0 hr' 0 _ (.refl _)
    intro s1 hl1 hp1
    obtain ⟨s2, x1, y1, y2, y3, y4, y5⟩ := key a1 rfl rfl s1 hl1 hp1
    exact ⟨s2, x1, y1, y2, y3, y4.trans a2.like, y5⟩

end
end Verif
