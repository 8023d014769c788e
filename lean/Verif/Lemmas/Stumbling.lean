import Verif.Lemmas.Running
import Verif.Props.Session
import Verif.Props.Stack

/-!
# Errors in words defined at the prompt of the program rtf
-/

namespace Verif
open Spec Stack

/-- Calling word `i` on any machine like `u` comes to raising error `e` on a machine for which `P` holds. -/
def Spec.Raising (cfg : Cfg) (depth : Nat) (e : Exn) (P : VM → Prop) (i : Nat) (u : VM) : Prop :=
  ∀ s1, Like s1 u → pc s1 < 2 ^ 64 → ∃ v m, m < depth ∧ P v ∧
    ∀ x, abortWith (ctx cfg (m + 1)) e v = .ok ((), x) → ∃ s2, execWord cfg depth i s1 = .ok ((), s2) ∧ Steps cfg depth s2 x

section
variable {R : Refs} {wl : Wordlist} {lv lo hi : Nat} {k : Fin 5} {d : DataSpace} {cfg : Cfg} {n : Nat}

/-- Calling a colon definition that calls a word which raises an error. -/
theorem raise_colon {W : Nat → VM → VM → Prop} (g : Region d lo hi)
    (hW : ∀ i s t, Loaded R lv wl lo hi k d s → W i s t →
      Acts cfg (n + 1) i s t ∧ Loaded R lv wl lo hi k d t) {e : Exn} {P : VM → Prop}
    {i : Nat} {w : Word} {q : Stmt} {s : VM} (hw : wl.words[i]? = some w) (ha : w.action = .core .nest)
    (h1 : lo ≤ w.dfa) (h2 : q.next w.dfa ≤ hi) (hq : q.At R lv d w.dfa) (hs : Loaded R lv wl lo hi k d s)
    (hr : (ret s).length < capacity)
    (hb : ∀ x : Cell, ∃ u j, Sem W (.stmt q) (setRet s (x :: ret s)) (.call j) u ∧ Raising cfg (n + 1) e P j u) :
    Raising cfg (n + 1) e P i s := by
  intro s1 hl hpc
  obtain ⟨w', e1, e2, e3⟩ := (hs.like hl).kept i w hw
  have hr1 : s1.task.r.items = ret s := hl.ret
  simp only [capacity] at hr
  have hp1 := push_holding s1.task.r (toCell (pc s1)) (by rw [hr1]; omega)
  rw [hr1] at hp1
  have ex : execWord cfg (n + 1) i s1 = .ok ((), s1.put s1.task.s (s1.task.r.push (toCell (pc s1)))
      s1.task.f w.dfa i) := by
    rw [exec_word e1, e2, ha]
    simp only [action, coreAction, nest, M.bind_apply, getSt_apply, VM.at_task, rPush_apply]
    rw [wordAt_ok (w := w') (by simpa using e1)]
    simp [setIp, VM.at, VM.put, e3, pc]
  have hl2 : Like (s1.put s1.task.s (s1.task.r.push (toCell (pc s1))) s1.task.f w.dfa i)
      (setRet s (toCell (pc s1) :: ret s)) :=
    hl.update hl.s (by rw [hp1]; exact hl.r.hold _ (by simp; omega)) hl.f _ _
  obtain ⟨u, j, b1, b2⟩ := hb (toCell (pc s1))
  obtain ⟨c1, t1, c2, c3, c4, c5, c6⟩ := simulate g hW b1 w.dfa _ _ ⟨hq, rfl⟩ h1 h2 (hs.setRet _) hl2
    (by simp [pc, VM.put])
  obtain ⟨v, m, f1, f2, f3⟩ := b2 (t1.at (pc t1 + 8) t1.task.st.wp) (c3.at _ _)
    (by have := g.upper; have := g.small; simp only [pc, VM.at_task] at *; omega)
  refine ⟨v, m, f1, f2, fun x hx => ⟨_, ex, ?_⟩⟩
  obtain ⟨s2, x1, x2⟩ := f3 x hx
  exact (c2.trans (.one (step_word (c1.like c3) g rfl c4 c5 c6 x1))).trans x2
end

section
variable {cfg : Cfg} {n b k m d : Nat} {s s0 a : VM} {ix : String → Nat} {text tok : List Char} {V V0 : Vocabulary}
  {l l' : List Cell} {o out p0 : List Byte} {p : Recipe} {q : Stmt} {why : Option (List Byte)}

/-- What is told about an error. -/
def Spec.Told (why : Option (List Byte)) (e : Exn) : Prop :=
  (∀ d, why = some d → ¬Quiet e ∧ d = ascii (description e)) ∧ (why = none → Quiet e)

/-- A word that is an error. -/
theorem Spec.Refuses.raising (hB : Refuses tok l why) (hR : Kit b ix text V m s0 s) (h : Sits s ix l o k p0 a) :
    ∃ name e, name ∈ calcWords ∧ Called tok name ∧ Told why e ∧ ∀ r : List Cell, Raising cfg (n + 2) e (RaisedOn a r) (ix name) (setRet a r) := by
  have hd := h.data
  cases hB with
  | @divide name f x l1 hm hs hl =>
    have hin : name ∈ ["/", "mod"] := by
      simp only [divisions, List.mem_cons, Prod.mk.injEq, List.not_mem_nil, or_false] at hm
      rcases hm with ⟨rfl, -⟩ | ⟨rfl, -⟩ <;> simp
    have hin' : name ∈ effects.map (·.1) ++ ["/", "mod", "abort"] := by
      refine List.mem_append_right _ ?_
      simp only [List.mem_cons, List.not_mem_nil, or_false] at hin ⊢
      rcases hin with h | h <;> simp [h]
    obtain ⟨w, w2, w3, w4⟩ := hR.prim h (name := name) hin'
    refine ⟨name, .divisionByZero, calcWords_prim hin', hs, ⟨fun d hd => by cases hd; exact ⟨by decide, rfl⟩, nofun⟩, fun r s1 hl1 hpc => ?_⟩
    obtain ⟨g1, g2, g3, -, -, -, g7, g8⟩ := parts_setRet hl1
    have hw' : s1.wl.words[ix name]? = some w := by rw [g1]; exact w2
    refine ⟨s1.at s1.task.st.ip (ix name), n, by omega, ⟨hl1.at _ _, by simpa using (List.getElem?_eq_some_iff.1 hw').1⟩, fun y hy => ⟨y, ?_, .refl _⟩⟩
    obtain ⟨q, q1, q2⟩ := C05_zero_divisor (ctx cfg (n + 1)) name (by
      simp only [List.mem_cons, List.not_mem_nil, or_false] at hin ⊢
      rcases hin with h | h <;> simp [h])
    rw [q1] at w4
    have hs1 : (s1.at s1.task.st.ip (ix name)).task.s.items = 0 :: x :: l1 := by
      rw [VM.at_task]
      exact g8.trans (hd.trans hl)
    rw [exec_word hw', ← Option.some.inj w4, ← hy]
    exact (q2 _).1 (items_eq_iff.1 hs1).top
  | abort hs =>
    obtain ⟨w, w2, w3, w4⟩ := hR.prim h (name := "abort") (by simp)
    refine ⟨"abort", .abort, calcWords_prim (by simp), hs, ⟨nofun, fun _ => by decide⟩, fun r s1 hl hpc => ?_⟩
    obtain ⟨g1, g2, g3, -, -, -, g7, -⟩ := parts_setRet hl
    have hw' : s1.wl.words[ix "abort"]? = some w := by rw [g1]; exact w2
    refine ⟨s1.at s1.task.st.ip (ix "abort"), n, by omega, ⟨hl.at _ _, by simpa using (List.getElem?_eq_some_iff.1 hw').1⟩, fun x hx => ⟨x, ?_, .refl _⟩⟩
    rw [exec_word hw', ← hx, ← Option.some.inj w4]
    rfl

theorem Spec.Raising.alike {e : Exn} {P : VM → Prop} {i : Nat} {u v : VM} (h : Raising cfg n e P i u) (k : Alike v u) : Raising cfg n e P i v :=
  fun s1 hl hp => h s1 (hl.trans k.like) hp

/-- The body of a definition comes to the error. -/
theorem stumbling {S : Scope} {cs : List (Cell × Cell)} {ch : Chore} (hK : Kit b ix text V0 m s0 s) (hR : Stumbles S cs ch l out why) :
    ∀ {newer : Vocabulary} {g : Nat} {q : Stmt} {o : List Byte} {a : VM}, V0 = newer ++ S.words →
      (∀ p, S.self = some p → ∃ w q', Spec.Entry ix s0 s S.words p g w q') → Turned ix s0 S.words g ch.recipe q → Sits s ix l o k p0 a →
      ∃ t l' e, Sits s ix l' (o ++ out) k p0 t ∧ t.tkn = a.tkn ∧ Told why e ∧ ∀ r0 r : List Cell, Frames r0 cs r → ∀ tok : Nat,
        (ch.stack tok r).length + S.room + 4 ≤ capacity → ∀ c : Nat, ∃ j u,
        Brings (Kit.Effects cfg (n + 1) ix s0 s) (ch.job (q.place c) tok) (setRet a (ch.stack tok r)) (.call j) u ∧
        Raising cfg (n + 2) e (fun v => ∃ r', r'.length + 4 ≤ capacity ∧ RaisedOn t r' v) j u := by
  have hc : capacity = 64 := rfl
  have hset : ∀ (u : VM) (l1 : List Cell), (setData u l1).tkn = u.tkn := fun _ _ => rfl
  have hlen : ∀ {l1 : List Cell} {o1 : List Byte} {u : VM}, Sits s ix l1 o1 k p0 u → l1.length ≤ capacity := by
    intro l1 o1 u h
    have := h.calm.1.depth
    rw [← h.data]; exact this
  have hprm : ∀ (lim idx : Cell) (tok : Nat) (r : List Cell), (params lim idx ++ BitVec.ofNat 64 tok :: r).length = r.length + 3 := by
    intro lim idx tok r; simp [params]
  -- a call of a word that the user defined
  have hcall : ∀ {older : Vocabulary} {p : Recipe} {d i : Nat} {w : Word} {q' : Stmt} {e : Exn} {P : VM → Prop} {o1 : List Byte} {l1 : List Cell} {a : VM}
      {r : List Cell}, Spec.Entry ix s0 s older p i w q' → Sits s ix l1 o1 k p0 a →
      r.length + (d + 1) + 4 ≤ capacity → (∀ r0 r : List Cell, Frames r0 [] r → ∀ tok : Nat,
        ((Chore.body p).stack tok r).length + d + 4 ≤ capacity → ∀ c : Nat, ∃ j u,
        Brings (Kit.Effects cfg (n + 1) ix s0 s) ((Chore.body p).job (q'.place c) tok) (setRet a ((Chore.body p).stack tok r)) (.call j) u ∧
        Raising cfg (n + 2) e P j u) →
      ∃ j u, Brings (Kit.Effects cfg (n + 1) ix s0 s) (.stmt (.word i)) (setRet a r) (.call j) u ∧ Raising cfg (n + 2) e P j u := by
    intro older p d i w q' e P o1 l1 a r e2 h hr t4
    have h2 := h.setRet (r := r) (by omega)
    have hr2 : ret (setRet a r) = r := ret_setRet (by omega)
    refine ⟨_, _, .self fun _ => .call, ?_⟩
    refine raise_colon hK.region (fun _ _ _ _ k => k) e2.word e2.nest e2.lower e2.upper e2.code (h2.there hK) (by rw [hr2]; omega) fun x => ?_
    have hx : (x :: r).length + d + 4 ≤ capacity := by simp only [List.length_cons]; omega
    obtain ⟨j, u, u1, u2⟩ := t4 (x :: r) (x :: r) .nil 0 hx w.dfa
    obtain ⟨v1, a1, a2⟩ := u1 _ (.refl _)
    refine ⟨v1, j, ?_, u2.alike a2⟩
    rw [hr2, setRet_push]
    exact .seqStop a1 (by simp)
  induction hR with
  | @basic V g' d c t l why hu hl hB =>
    intro newer g q o a hV _ hT h
    obtain ⟨name, e, h1, h2, h3, h4⟩ := hB.raising (cfg := cfg) (n := n) hK h
    have key : q = .word (ix name) := by
      cases hT with
      | token hM =>
      cases hM with
      | integer hn => exact absurd h2 (hn _ (calcWords_rtf _ h1))
      | word k1 k2 _ => rw [Option.some.inj (C20_unique (hK.calc k1 k2) (hK.calc h1 h2))]
      | user k1 _ k2 => exact absurd k2 (hu _ (by cases k1; simp))
    subst key
    refine ⟨a, l, e, by rw [List.append_nil]; exact h, rfl, h3, fun r0 r hF tok hr c => ⟨_, _, .self fun _ => .call, fun s1 hl hpc => ?_⟩⟩
    have hr : r.length + d + 4 ≤ capacity := hr
    obtain ⟨v, m, v1, v2, v3⟩ := h4 r s1 hl hpc
    exact ⟨v, m, v1, ⟨r, by omega, v2⟩, v3⟩
  | @call newer' older g' d c t name p l out why hu hs hl _ ih =>
    intro newer g q o a hV _ hT h
    obtain ⟨w, q', -, e2⟩ := hK.entries (newer ++ newer') name p older (by rw [hV, List.append_assoc])
    have key : q = .word (s0.wl.words.length + older.length) := by
      cases hT with
      | token hM =>
      cases hM with
      | integer _ hn => exact absurd hs (hn (name, p) (by simp))
      | word _ _ hn => exact absurd hs (hn (name, p) (by simp))
      | user k1 k2 k3 => rw [split_unique k1 hu k2 hs k3]
    subst key
    obtain ⟨t, l', e, t1, t2, t3, t4⟩ := ih (newer := newer ++ newer' ++ [(name, p)]) (by rw [hV]; simp) (fun p' hp => by cases hp; exact ⟨w, q', e2⟩) e2.turned h
    exact ⟨t, l', e, t1, t2, t3, fun r0 r hF tok hr c => hcall e2 h hr t4⟩
  | @recurse V p d c l out why hl _ ih =>
    intro newer g q o a hV hself hT h
    cases hT
    obtain ⟨w, q', e2⟩ := hself p rfl
    obtain ⟨t, l', e, t1, t2, t3, t4⟩ := ih hV (fun p' hp => by cases hp; exact ⟨w, q', e2⟩) e2.turned h
    exact ⟨t, l', e, t1, t2, t3, fun r0 r hF tok hr c => hcall e2 h hr t4⟩
  | first _ ih =>
    intro newer g q o a hV hself hT h
    cases hT with
    | seq hT1 hT2 =>
    obtain ⟨t, l', e, t1, t2, t3, t4⟩ := ih hV hself hT1 h
    refine ⟨t, l', e, t1, t2, t3, fun r0 r hF tok hr c => ?_⟩
    obtain ⟨j, u, u1, u2⟩ := t4 r0 r hF tok hr c
    exact ⟨j, u, .seqStop u1 (by simp), u2⟩
  | second hR1 _ ih =>
    intro newer g q o a hV hself hT h
    cases hT with
    | seq hT1 hT2 =>
    obtain ⟨v, v1, v2, v3, v4⟩ := running (cfg := cfg) (n := n + 1) hK hR1 hV hself hT1 h
    obtain ⟨t, l', e, t1, t2, t3, t4⟩ := ih hV hself hT2 v1
    refine ⟨t, l', e, by rw [← List.append_assoc]; exact t1, t2.trans (congrArg Prod.snd v2), t3, fun r0 r hF tok hr c => ?_⟩
    obtain ⟨j, u, u1, u2⟩ := t4 r0 r hF tok hr _
    exact ⟨j, u, .seq (v4 r0 r hF tok hr _) u1, u2⟩
  | @ifTrue S c p f l x why hf _ ih =>
    intro newer g q o a hV hself hT h
    cases hT with
    | ifThen hT =>
    have hl := hlen h
    simp only [List.length_cons] at hl
    obtain ⟨t, l', e, t1, t2, t3, t4⟩ := ih hV hself hT (h.setData (l' := l) (by omega))
    refine ⟨t, l', e, t1, t2, t3, fun r0 r hF tok hr c => ?_⟩
    obtain ⟨j, u, u1, u2⟩ := t4 r0 r hF tok hr _
    rw [setRet_setData] at u1
    exact ⟨j, u, .ifTrue ((setRet_data _ _).trans h.data) hf (by omega) u1, u2⟩
  | @elseTrue S c p p' f l x why hf _ ih =>
    intro newer g q o a hV hself hT h
    cases hT with
    | ifElse hT1 hT2 =>
    have hl := hlen h
    simp only [List.length_cons] at hl
    obtain ⟨t, l', e, t1, t2, t3, t4⟩ := ih hV hself hT1 (h.setData (l' := l) (by omega))
    refine ⟨t, l', e, t1, t2, t3, fun r0 r hF tok hr c => ?_⟩
    obtain ⟨j, u, u1, u2⟩ := t4 r0 r hF tok hr _
    rw [setRet_setData] at u1
    exact ⟨j, u, .elseTrue ((setRet_data _ _).trans h.data) hf (by omega) u1, u2⟩
  | @elseFalse S c p p' l x why _ ih =>
    intro newer g q o a hV hself hT h
    cases hT with
    | ifElse hT1 hT2 =>
    have hl := hlen h
    simp only [List.length_cons] at hl
    obtain ⟨t, l', e, t1, t2, t3, t4⟩ := ih hV hself hT2 (h.setData (l' := l) (by omega))
    refine ⟨t, l', e, t1, t2, t3, fun r0 r hF tok hr c => ?_⟩
    obtain ⟨j, u, u1, u2⟩ := t4 r0 r hF tok hr _
    rw [setRet_setData] at u1
    exact ⟨j, u, .elseFalse ((setRet_data _ _).trans h.data) (by omega) u1, u2⟩
  | untilBody _ ih =>
    intro newer g q o a hV hself hT h
    cases hT with
    | untilLoop hT =>
    obtain ⟨t, l', e, t1, t2, t3, t4⟩ := ih hV hself hT h
    refine ⟨t, l', e, t1, t2, t3, fun r0 r hF tok hr c => ?_⟩
    obtain ⟨j, u, u1, u2⟩ := t4 r0 r hF tok hr _
    exact ⟨j, u, .untilStop u1 (by simp), u2⟩
  | @untilNext S c p l l1 x y why hR1 _ ih =>
    intro newer g q o a hV hself hT h
    have hT0 := hT
    cases hT with
    | untilLoop hT =>
    obtain ⟨v, v1, v2, v3, v4⟩ := running (cfg := cfg) (n := n + 1) hK hR1 hV hself hT h
    have hl := hlen v1
    simp only [List.length_cons] at hl
    obtain ⟨t, l', e, t1, t2, t3, t4⟩ := ih hV hself hT0 (v1.setData (l' := l1) (by omega))
    refine ⟨t, l', e, by rw [← List.append_assoc]; exact t1, t2.trans (congrArg Prod.snd v2), t3, fun r0 r hF tok hr c => ?_⟩
    obtain ⟨j, u, u1, u2⟩ := t4 r0 r hF tok hr c
    rw [setRet_setData] at u1
    exact ⟨j, u, .untilNext (v4 r0 r hF tok hr _) ((setRet_data _ _).trans v1.data) (by omega) u1, u2⟩
  | againBody _ ih =>
    intro newer g q o a hV hself hT h
    cases hT with
    | againLoop hT =>
    obtain ⟨t, l', e, t1, t2, t3, t4⟩ := ih hV hself hT h
    refine ⟨t, l', e, t1, t2, t3, fun r0 r hF tok hr c => ?_⟩
    obtain ⟨j, u, u1, u2⟩ := t4 r0 r hF tok hr _
    exact ⟨j, u, .againStop u1 (by simp), u2⟩
  | @againNext S c p l l1 x y why hR1 _ ih =>
    intro newer g q o a hV hself hT h
    have hT0 := hT
    cases hT with
    | againLoop hT =>
    obtain ⟨v, v1, v2, v3, v4⟩ := running (cfg := cfg) (n := n + 1) hK hR1 hV hself hT h
    obtain ⟨t, l', e, t1, t2, t3, t4⟩ := ih hV hself hT0 v1
    refine ⟨t, l', e, by rw [← List.append_assoc]; exact t1, t2.trans (congrArg Prod.snd v2), t3, fun r0 r hF tok hr c => ?_⟩
    obtain ⟨j, u, u1, u2⟩ := t4 r0 r hF tok hr c
    exact ⟨j, u, .againNext (v4 r0 r hF tok hr _) u1, u2⟩
  | whileTest _ ih =>
    intro newer g q o a hV hself hT h
    cases hT with
    | whileLoop hT1 hT2 =>
    obtain ⟨t, l', e, t1, t2, t3, t4⟩ := ih hV hself hT1 h
    refine ⟨t, l', e, t1, t2, t3, fun r0 r hF tok hr c => ?_⟩
    obtain ⟨j, u, u1, u2⟩ := t4 r0 r hF tok hr _
    exact ⟨j, u, .whileStop u1 (by simp), u2⟩
  | @whileBody S c p p' f l l1 x y why hR1 hf _ ih =>
    intro newer g q o a hV hself hT h
    cases hT with
    | whileLoop hT1 hT2 =>
    obtain ⟨v, v1, v2, v3, v4⟩ := running (cfg := cfg) (n := n + 1) hK hR1 hV hself hT1 h
    have hl := hlen v1
    simp only [List.length_cons] at hl
    obtain ⟨t, l', e, t1, t2, t3, t4⟩ := ih hV hself hT2 (v1.setData (l' := l1) (by omega))
    refine ⟨t, l', e, by rw [← List.append_assoc]; exact t1, t2.trans (congrArg Prod.snd v2), t3, fun r0 r hF tok hr c => ?_⟩
    obtain ⟨j, u, u1, u2⟩ := t4 r0 r hF tok hr _
    rw [setRet_setData] at u1
    exact ⟨j, u, .whileStop2 (v4 r0 r hF tok hr _) ((setRet_data _ _).trans v1.data) hf (by omega) u1 (by simp), u2⟩
  | @whileNext S c p p' f l l1 l2 x y z why hR1 hf hR2 _ ih =>
    intro newer g q o a hV hself hT h
    have hT0 := hT
    cases hT with
    | whileLoop hT1 hT2 =>
    obtain ⟨v, v1, v2, v3, v4⟩ := running (cfg := cfg) (n := n + 1) hK hR1 hV hself hT1 h
    have hl := hlen v1
    simp only [List.length_cons] at hl
    obtain ⟨w, w1, w2, w3, w4⟩ := running (cfg := cfg) (n := n + 1) hK hR2 hV hself hT2 (v1.setData (l' := l1) (by omega))
    obtain ⟨t, l', e, t1, t2, t3, t4⟩ := ih hV hself hT0 w1
    refine ⟨t, l', e, by rw [← List.append_assoc, ← List.append_assoc]; exact t1,
      t2.trans ((congrArg Prod.snd w2).trans (congrArg Prod.snd v2)), t3, fun r0 r hF tok hr c => ?_⟩
    obtain ⟨j, u, u1, u2⟩ := t4 r0 r hF tok hr c
    refine ⟨j, u, .whileNext (v4 r0 r hF tok hr _) ((setRet_data _ _).trans v1.data) hf (by omega) ?_ u1, u2⟩
    rw [← setRet_setData]; exact w4 r0 r hF tok hr _
  | @loop V g' d c ask plus p lim start l x why ha _ ih =>
    intro newer g q o a hV hself hT h
    cases hT with
    | counted hT =>
    have hl := hlen h
    simp only [List.length_cons] at hl
    obtain ⟨t, l', e, t1, t2, t3, t4⟩ := ih hV hself hT (h.setData (l' := l) (by omega))
    refine ⟨t, l', e, t1, t2, t3, fun r0 r hF tok hr x => ?_⟩
    have hr : r.length + (d + 3) + 4 ≤ capacity := hr
    have hr2 : ret (setRet a r) = r := ret_setRet (by omega)
    have hp := hprm lim start (x + 8) r
    obtain ⟨j, u, u1, u2⟩ := t4 r0 r hF (x + 8) (by show (params lim start ++ BitVec.ofNat 64 (x + 8) :: r).length + d + 4 ≤ _; omega) (x + 16)
    refine ⟨j, u, ?_, u2⟩
    show Brings _ _ (setRet a r) _ _
    refine .loop ((setRet_data _ _).trans h.data) ha (by rw [hr2]; omega) (by omega) ?_
    rw [hr2]
    refine u1.of ?_
    show Alike _ (setRet (setData a l) (params lim start ++ BitVec.ofNat 64 (x + 8) :: r))
    rw [← setRet_setData]
    exact alike_ret _ (by omega) (by omega)
  | @turn S c plus p lim idx l x why _ ih =>
    intro newer g q o a hV hself hT h
    obtain ⟨t, l', e, t1, t2, t3, t4⟩ := ih hV hself hT h
    refine ⟨t, l', e, t1, t2, t3, fun r0 r hF tok hr x => ?_⟩
    obtain ⟨j, u, u1, u2⟩ := t4 r0 _ (.cons (BitVec.ofNat 64 tok) hF) 0 hr x
    exact ⟨j, u, .loopStop u1 (by simp) (by simp), u2⟩
  | @loopNext S c p lim idx l l1 x y why hR1 he _ ih =>
    intro newer g q o a hV hself hT h
    obtain ⟨v, v1, v2, v3, v4⟩ := running (cfg := cfg) (n := n + 1) hK hR1 hV hself hT h
    obtain ⟨t, l', e, t1, t2, t3, t4⟩ := ih hV hself hT v1
    refine ⟨t, l', e, by rw [← List.append_assoc]; exact t1, t2.trans (congrArg Prod.snd v2), t3, fun r0 r hF tok hr x => ?_⟩
    have hr : (params lim idx ++ BitVec.ofNat 64 tok :: r).length + S.room + 4 ≤ capacity := hr
    have hp := hprm lim idx tok r
    have hp2 := hprm lim (idx + 1) tok r
    have b4 : Brings _ _ _ _ (setRet v (params lim idx ++ BitVec.ofNat 64 tok :: r)) := v4 r0 _ (.cons _ hF) 0 hr x
    obtain ⟨j, u, u1, u2⟩ := t4 r0 r hF tok (by show (params lim (idx + 1) ++ BitVec.ofNat 64 tok :: r).length + _ + _ ≤ _; omega) x
    exact ⟨j, u, .loopNext b4 (ret_setRet (by omega)) he (by omega) (u1.of (alike_ret v (by omega) (by omega))), u2⟩
  | @plusNext S c p lim idx f l l1 x y why hR1 he _ ih =>
    intro newer g q o a hV hself hT h
    obtain ⟨v, v1, v2, v3, v4⟩ := running (cfg := cfg) (n := n + 1) hK hR1 hV hself hT h
    have hl := hlen v1
    simp only [List.length_cons] at hl
    obtain ⟨t, l', e, t1, t2, t3, t4⟩ := ih hV hself hT (v1.setData (l' := l1) (by omega))
    refine ⟨t, l', e, by rw [← List.append_assoc]; exact t1, t2.trans (congrArg Prod.snd v2), t3, fun r0 r hF tok hr x => ?_⟩
    have hr : (params lim idx ++ BitVec.ofNat 64 tok :: r).length + S.room + 4 ≤ capacity := hr
    have hp := hprm lim idx tok r
    have hp2 := hprm lim (idx + f) tok r
    have b4 : Brings _ _ _ _ (setRet v (params lim idx ++ BitVec.ofNat 64 tok :: r)) := v4 r0 _ (.cons _ hF) 0 hr x
    obtain ⟨j, u, u1, u2⟩ := t4 r0 r hF tok (by show (params lim (idx + f) ++ BitVec.ofNat 64 tok :: r).length + _ + _ ≤ _; omega) x
    refine ⟨j, u, .plusNext b4 (ret_setRet (by omega)) ((setRet_data _ _).trans v1.data) he (by omega) (by omega) (u1.of ?_), u2⟩
    show Alike _ (setRet (setData v l1) (params lim (idx + f) ++ BitVec.ofNat 64 tok :: r))
    rw [← setRet_setData]
    exact alike_ret _ (by omega) (by omega)

theorem Spec.Refuses.trouble {f : FloatOps} (h : Refuses tok l why) : Trouble f tok l why := by
  cases h with
  | divide h1 h2 h3 => exact .divide h1 h2 h3
  | abort h => exact .abort h

/-- A token at the prompt that comes to an error in the word that it names. -/
theorem Spec.Stumbles.raises (hR : Stumbles (prompt V) [] (.body (.token tok)) l out why) (hK : Kit b ix text V m s0 s) (h : Sits s ix l o k p0 a)
    (ht : a.tkn = some tok) : ∃ e c l', Sits s ix l' (o ++ out) k p0 c ∧ c.tkn = some tok ∧ Told why e ∧
      ∀ r : List Cell, r.length + 54 ≤ capacity →
        TokenRaises cfg (n + 2) e (fun v => ∃ r', r'.length + 4 ≤ capacity ∧ RaisedOn c r' v) (setRet a r) := by
  have hc : capacity = 64 := rfl
  have hn : nesting = 50 := rfl
  have key : ∀ {W : Nat → VM → VM → Prop} {j : Job} {u v : VM} {out : Out} {i i' : Nat}, Sem W j u out v → j = .stmt (.word i) → out = .call i' →
      i' = i ∧ v = u := by
    intro W j u v out i i' h h1 h2
    cases h with
    | word h => cases h2
    | call => cases h1; cases h2; exact ⟨rfl, rfl⟩
    | _ => cases h1
  have all : ∀ {i : Nat} {w : Word}, Newest a (utf8 tok) (some i) → a.wl.words[i]? = some w → w.isCompileOnly = false →
      Turned ix s0 V 0 (.token tok) (.word i) → ∃ e c l', Sits s ix l' (o ++ out) k p0 c ∧ c.tkn = some tok ∧ Told why e ∧
      ∀ r : List Cell, r.length + 54 ≤ capacity →
        TokenRaises cfg (n + 2) e (fun v => ∃ r', r'.length + 4 ≤ capacity ∧ RaisedOn c r' v) (setRet a r) := by
    intro i w h1 h2 h3 hT
    obtain ⟨t, l', e, t1, t2, t3, t4⟩ := stumbling (cfg := cfg) (n := n) hK hR (newer := []) (g := 0) rfl nofun hT h
    refine ⟨e, t, l', t1, t2.trans ht, t3, fun r hr => ?_⟩
    have hr' : r.length + nesting + 4 ≤ capacity := by omega
    obtain ⟨j, u, u1, u2⟩ := t4 r r .nil 0 hr' 0
    obtain ⟨v1, a1, a2⟩ := u1 _ (.refl _)
    obtain ⟨rfl, rfl⟩ := key a1 rfl rfl
    exact C66_word (h.dict hK) (h.inSpace hK) ht h1 h2 (by rw [h.mode]; exact h3) (u2.alike a2)
  have hR' := hR
  generalize hd : nesting = d at hR'
  cases hR' with
  | basic hu hl hB =>
    obtain ⟨name, e, h1, h2, -⟩ := hB.raising (cfg := cfg) (n := n) hK h
    obtain ⟨w1, w, w2, w3⟩ := hK.word h hu h1 h2
    exact all w1 w2 w3 (.token (.word h1 h2 hu))
  | @call newer older _ d _ _ name p _ _ _ hu hs hl _ =>
    obtain ⟨w, q', e1, e2⟩ := hK.entries newer name p older rfl
    exact all (h.newest (newest_same hs (e1 (hu.same hs)))) (by rw [h.wl]; exact e2.word) e2.open_ (.token (.user (e := (name, p)) rfl hu hs))

end
end Verif
