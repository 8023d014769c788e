import Verif.Spec.Balance
import Verif.Lemmas.CompileAll

/-!
# What may come in which order is what is nested properly
-/

namespace Verif
open Spec Stack

/-- An open structure, with the parts of it that are complete. -/
inductive Frame where
  | if_ (o : Stmt)
  | else_ (o t : Stmt)
  | begin_ (o : Stmt)
  | while_ (o : Stmt)
  | do_ (ask : Bool) (o : Stmt)
  | case_ (o : Stmt)
  | of_ (o : Stmt)
  | endof (o b : Stmt)

def Frame.mark : Frame → Mark
  | .if_ _ => .if_
  | .else_ _ _ => .else_
  | .begin_ _ => .begin_
  | .while_ _ => .while_
  | .do_ _ _ => .do_
  | .case_ _ => .case_
  | .of_ _ => .of_
  | .endof _ _ => .endof

/-- What comes before it in the enclosing structure. -/
def Frame.outer : Frame → Stmt
  | .if_ o | .else_ o _ | .begin_ o | .while_ o | .do_ _ o | .case_ o | .of_ o | .endof o _ => o

section
variable (R : Refs) (lv : Nat)

/-- Its own items. -/
def Frame.own : Frame → List Item
  | .if_ _ => [.imm .immIf]
  | .else_ _ t => .imm .immIf :: t.items R lv ++ [.imm .immElse]
  | .begin_ _ => [.imm .immBegin]
  | .while_ _ => [.imm .immWhile]
  | .do_ ask _ => [.imm (if ask then .immQdo else .immDo)]
  | .case_ _ => [.imm .immCase]
  | .of_ _ => [.imm .immOf]
  | .endof _ b => .imm .immOf :: b.items R lv ++ [.imm .immEndof]

/-- All items before what is complete in the innermost structure. -/
def before : List Frame → List Item
  | [] => []
  | f :: F => before F ++ (f.outer.items R lv ++ f.own R lv)

end

/-- Whether one of them is a counted loop. -/
def looping (F : List Frame) : Bool := decide (Mark.do_ ∈ F.map Frame.mark)

/-- `LEAVE` only in counted loops. -/
def Good (lv : Nat) (b : Bool) (p : Stmt) : Prop := p.leavesOk b = true ∧ lv ∉ p.calls

def GoodArms (lv : Nat) (b : Bool) (r : Arms) : Prop := r.leavesOk b = true ∧ lv ∉ r.calls

def Frame.Good (lv : Nat) (b : Bool) : Frame → Prop
  | .else_ _ t => Verif.Good lv b t
  | .endof _ t => Verif.Good lv b t
  | _ => True

def AllGood (lv : Nat) : List Frame → Prop
  | [] => True
  | f :: F => Good lv (looping F) f.outer ∧ f.Good lv (looping F) ∧ AllGood lv F

section
variable {R : Refs} {lv : Nat}

theorem Good.seq {b : Bool} {p q : Stmt} (h : Good lv b p) (k : Good lv b q) : Good lv b (.seq p q) := by
  refine ⟨by simp [Stmt.leavesOk, h.1, k.1], ?_⟩
  simp only [Stmt.calls, List.mem_append, not_or]
  exact ⟨h.2, k.2⟩

theorem good_skip (b : Bool) : Good lv b .skip := ⟨rfl, by simp [Stmt.calls]⟩

theorem looping_cons (f : Frame) (F : List Frame) : looping (f :: F) = (decide (f.mark = .do_) || looping F) := by
  simp [looping, eq_comm]

/-- `ENDCASE`. -/
theorem close_case : ∀ (F : List Frame) (r : Arms) {K : List Mark}, closeCase (F.map Frame.mark) = some K →
    AllGood lv F → GoodArms lv (looping F) r → ∃ (F' : List Frame) (o : Stmt) (r' : Arms), F'.map Frame.mark = K ∧
      AllGood lv F' ∧ Good lv (looping F') o ∧ GoodArms lv (looping F') r' ∧
      before R lv F' ++ (o.items R lv ++ .imm .immCase :: r'.items R lv) = before R lv F ++ r.items R lv
  | [], _, _, h, _, _ => by simp [closeCase] at h
  | f :: F, r, K, h, hg, hr => by
    obtain ⟨g1, g2, g3⟩ := hg
    cases f <;> simp only [List.map_cons, Frame.mark, closeCase, reduceCtorEq, Option.some.injEq] at h
    case endof o b =>
      obtain ⟨F', o', r', h1, h2, h3, h4, h5⟩ := close_case F (.arm o b r) h g3 (by
        rw [looping_cons] at hr
        simp only [Frame.mark, reduceCtorEq, decide_false, Bool.false_or] at hr
        refine ⟨by simp only [Arms.leavesOk, Bool.and_eq_true]; exact ⟨⟨g1.1, g2.1⟩, hr.1⟩, ?_⟩
        simp only [Arms.calls, List.mem_append, not_or]
        exact ⟨⟨g1.2, g2.2⟩, hr.2⟩)
      refine ⟨F', o', r', h1, h2, h3, h4, h5.trans ?_⟩
      simp [before, Arms.items, Frame.own, Frame.outer]
    case case_ o =>
      subst h
      rw [looping_cons] at hr
      simp only [Frame.mark, reduceCtorEq, decide_false, Bool.false_or] at hr
      refine ⟨F, o, r, rfl, g3, g1, hr, ?_⟩
      simp [before, Frame.own, Frame.outer]

/-- One item more. -/
theorem frame_step {wl : Wordlist} {it : Item} (hit : it.Ordinary wl lv) {F : List Frame} {p : Stmt} {K : List Mark}
    (hF : AllGood lv F) (hp : Good lv (looping F) p) (h : openItem lv it (F.map Frame.mark) = some K) :
    ∃ (F' : List Frame) (p' : Stmt), F'.map Frame.mark = K ∧ AllGood lv F' ∧ Good lv (looping F') p' ∧
      before R lv F' ++ p'.items R lv = before R lv F ++ (p.items R lv ++ [it]) := by
  have push : ∀ (f : Frame), f.outer = p → f.Good lv (looping F) → f.own R lv = [it] → F.map Frame.mark = F.map Frame.mark →
      f.mark :: F.map Frame.mark = K →
      ∃ (F' : List Frame) (p' : Stmt), F'.map Frame.mark = K ∧ AllGood lv F' ∧ Good lv (looping F') p' ∧
        before R lv F' ++ p'.items R lv = before R lv F ++ (p.items R lv ++ [it]) := by
    intro f h1 h2 h3 _ h4
    subst h1
    exact ⟨f :: F, .skip, h4, ⟨hp, h2, hF⟩, good_skip _, by simp [before, h3, Stmt.items]⟩
  have plain : ∀ (q : Stmt), Good lv (looping F) q → q.items R lv = [it] → F.map Frame.mark = K →
      ∃ (F' : List Frame) (p' : Stmt), F'.map Frame.mark = K ∧ AllGood lv F' ∧ Good lv (looping F') p' ∧
        before R lv F' ++ p'.items R lv = before R lv F ++ (p.items R lv ++ [it]) := by
    intro q h1 h2 h3
    exact ⟨F, .seq p q, h3, hF, hp.seq h1, by simp [Stmt.items, h2]⟩
  cases it with
  | lit v => exact plain (.lit v) ⟨rfl, by simp [Stmt.calls]⟩ rfl (by simpa [openItem] using h)
  | flt v => exact plain (.flt v) ⟨rfl, by simp [Stmt.calls]⟩ rfl (by simpa [openItem] using h)
  | str bs => exact plain (.str 0 bs) ⟨rfl, by simp [Stmt.calls]⟩ rfl (by simpa [openItem] using h)
  | word i =>
    simp only [openItem] at h
    by_cases hi : i = lv
    · subst hi
      by_cases hd : Mark.do_ ∈ F.map Frame.mark
      · rw [if_pos rfl, if_pos hd] at h
        exact plain .leave ⟨by simp only [Stmt.leavesOk, looping, hd, decide_true], by simp [Stmt.calls]⟩ rfl
          (by simpa using h)
      · rw [if_pos rfl, if_neg hd] at h; cases h
    · rw [if_neg hi] at h
      exact plain (.word i) ⟨rfl, by simp [Stmt.calls, Ne.symm hi]⟩ rfl (by simpa using h)
  | imm q =>
    simp only [Item.Ordinary, controlWords, List.mem_cons, List.not_mem_nil, or_false] at hit
    simp only [openItem] at h
    have close : ∀ (f : Frame) (F' : List Frame) (q' : Stmt), F = f :: F' → (AllGood lv (f :: F') → Good lv (looping (f :: F')) p →
        Good lv (looping F') q') → f.outer.items R lv ++ (f.own R lv ++ (p.items R lv ++ [.imm q])) =
          f.outer.items R lv ++ q'.items R lv → F'.map Frame.mark = K →
        ∃ (F' : List Frame) (p' : Stmt), F'.map Frame.mark = K ∧ AllGood lv F' ∧ Good lv (looping F') p' ∧
          before R lv F' ++ p'.items R lv = before R lv F ++ (p.items R lv ++ [.imm q]) := by
      intro f F' q' h1 h2 h3 h4
      subst h1
      refine ⟨F', .seq f.outer q', h4, hF.2.2, hF.1.seq (h2 hF hp), ?_⟩
      simp only [before, Stmt.items, List.append_assoc]
      rw [h3]
    rcases hit with rfl | rfl | rfl | rfl | rfl | rfl | rfl | rfl | rfl | rfl | rfl | rfl | rfl | rfl | rfl | rfl <;>
      simp only [openAfter] at h
    · exact push (.if_ p) rfl trivial rfl rfl (Option.some.inj h)
    · -- else
      rcases F with _ | ⟨f, F⟩
      · cases h
      cases f <;> simp only [List.map_cons, Frame.mark, reduceCtorEq] at h
      case if_ o =>
        rw [looping_cons] at hp
        refine ⟨.else_ o p :: F, .skip, Option.some.inj h, ⟨hF.1, hp, hF.2.2⟩, good_skip _, ?_⟩
        simp [before, Frame.own, Frame.outer, Stmt.items]
    · -- then
      rcases F with _ | ⟨f, F⟩
      · cases h
      cases f <;> simp only [List.map_cons, Frame.mark, reduceCtorEq] at h
      case if_ o =>
        refine close (.if_ o) F (.ifThen p) rfl (fun g1 g2 => ?_) (by simp [Frame.own, Stmt.items]) (Option.some.inj h)
        rw [looping_cons] at g2
        exact g2
      case else_ o t' =>
        refine close (.else_ o t') F (.ifElse t' p) rfl (fun g1 g2 => ?_) (by simp [Frame.own, Stmt.items]) (Option.some.inj h)
        rw [looping_cons] at g2
        refine ⟨?_, ?_⟩
        · simp only [Stmt.leavesOk, Bool.and_eq_true]
          exact ⟨g1.2.1.1, g2.1⟩
        · simp only [Stmt.calls, List.mem_append, not_or]
          exact ⟨g1.2.1.2, g2.2⟩
    · exact push (.begin_ p) rfl trivial rfl rfl (Option.some.inj h)
    · -- until
      rcases F with _ | ⟨f, F⟩
      · cases h
      cases f <;> simp only [List.map_cons, Frame.mark, reduceCtorEq] at h
      case begin_ o =>
        refine close (.begin_ o) F (.untilLoop p) rfl (fun g1 g2 => ?_) (by simp [Frame.own, Stmt.items]) (Option.some.inj h)
        rw [looping_cons] at g2
        exact g2
    · -- again
      rcases F with _ | ⟨f, F⟩
      · cases h
      cases f <;> simp only [List.map_cons, Frame.mark, reduceCtorEq] at h
      case begin_ o =>
        refine close (.begin_ o) F (.againLoop p) rfl (fun g1 g2 => ?_) (by simp [Frame.own, Stmt.items]) (Option.some.inj h)
        rw [looping_cons] at g2
        exact g2
    · exact push (.while_ p) rfl trivial rfl rfl (Option.some.inj h)
    · -- repeat
      rcases F with _ | ⟨f, F⟩
      · cases h
      cases f <;> simp only [List.map_cons, Frame.mark, reduceCtorEq] at h
      case while_ o =>
        rcases F with _ | ⟨f, F⟩
        · cases h
        cases f <;> simp only [List.map_cons, Frame.mark, reduceCtorEq] at h
        case begin_ o' =>
          have g2 := hp
          have g3 := hF.1
          rw [looping_cons, looping_cons] at g2
          rw [looping_cons] at g3
          refine ⟨F, .seq o' (.whileLoop o p), Option.some.inj h, hF.2.2.2.2, hF.2.2.1.seq ?_, ?_⟩
          · refine ⟨?_, ?_⟩
            · simp only [Stmt.leavesOk, Bool.and_eq_true]
              exact ⟨g3.1, g2.1⟩
            · simp only [Stmt.calls, List.mem_append, not_or]
              exact ⟨g3.2, g2.2⟩
          · simp [before, Stmt.items, Frame.own, Frame.outer]
    · exact push (.do_ false p) rfl trivial rfl rfl (Option.some.inj h)
    · exact push (.do_ true p) rfl trivial rfl rfl (Option.some.inj h)
    · -- loop
      rcases F with _ | ⟨f, F⟩
      · cases h
      cases f <;> simp only [List.map_cons, Frame.mark, reduceCtorEq] at h
      case do_ ask o =>
        refine close (.do_ ask o) F (.loop ask false 0 p) rfl (fun g1 g2 => ?_) (by simp [Frame.own, Stmt.items]) (Option.some.inj h)
        rw [looping_cons] at g2
        exact g2
    · -- +loop
      rcases F with _ | ⟨f, F⟩
      · cases h
      cases f <;> simp only [List.map_cons, Frame.mark, reduceCtorEq] at h
      case do_ ask o =>
        refine close (.do_ ask o) F (.loop ask true 0 p) rfl (fun g1 g2 => ?_) (by simp [Frame.own, Stmt.items]) (Option.some.inj h)
        rw [looping_cons] at g2
        exact g2
    · exact push (.case_ p) rfl trivial rfl rfl (Option.some.inj h)
    · -- of
      rcases F with _ | ⟨f, F⟩
      · cases h
      cases f <;> simp only [List.map_cons, Frame.mark, reduceCtorEq] at h
      case case_ o => exact push (.of_ p) rfl trivial rfl rfl (Option.some.inj h)
      case endof o b => exact push (.of_ p) rfl trivial rfl rfl (Option.some.inj h)
    · -- endof
      rcases F with _ | ⟨f, F⟩
      · cases h
      cases f <;> simp only [List.map_cons, Frame.mark, reduceCtorEq] at h
      case of_ o =>
        rw [looping_cons] at hp
        refine ⟨.endof o p :: F, .skip, Option.some.inj h, ⟨hF.1, hp, hF.2.2⟩, good_skip _, ?_⟩
        simp [before, Frame.own, Frame.outer, Stmt.items]
    · -- endcase
      obtain ⟨F', o, r, h1, h2, h3, h4, h5⟩ := close_case (R := R) F (.default p) h hF hp
      refine ⟨F', .seq o (.case r), h1, h2, h3.seq h4, ?_⟩
      simp only [Stmt.items]
      rw [h5]
      simp [Arms.items]

theorem openItems_append (l m : List Item) (K : List Mark) :
    openItems lv (l ++ m) K = (openItems lv l K).bind (openItems lv m) := by
  induction l generalizing K with
  | nil => rfl
  | cons i l ih =>
    simp only [List.cons_append, openItems]
    cases openItem lv i K with
    | none => rfl
    | some K' => exact ih K'

theorem frame_steps {wl : Wordlist} : ∀ (items : List Item) {F : List Frame} {p : Stmt} {K : List Mark},
    (∀ it ∈ items, it.Ordinary wl lv) → AllGood lv F → Good lv (looping F) p →
    openItems lv items (F.map Frame.mark) = some K →
    ∃ (F' : List Frame) (p' : Stmt), F'.map Frame.mark = K ∧ AllGood lv F' ∧ Good lv (looping F') p' ∧
      before R lv F' ++ p'.items R lv = before R lv F ++ (p.items R lv ++ items)
  | [], F, p, K, _, hF, hp, h => ⟨F, p, Option.some.inj h, hF, hp, by simp⟩
  | it :: items, F, p, K, hi, hF, hp, h => by
    simp only [openItems] at h
    obtain ⟨K', h1, h2⟩ := Option.bind_eq_some_iff.1 h
    obtain ⟨F1, p1, rfl, a2, a3, a4⟩ := frame_step (R := R) (hi it (by simp)) hF hp h1
    obtain ⟨F2, p2, b1, b2, b3, b4⟩ := frame_steps items (fun x hx => hi x (by simp [hx])) a2 a3 h2
    refine ⟨F2, p2, b1, b2, b3, b4.trans ?_⟩
    rw [← List.append_assoc, a4]
    simp

/-- Items that leave nothing open are those of a structured program. -/
theorem nested_of_open {wl : Wordlist} {items : List Item} (hi : ∀ it ∈ items, it.Ordinary wl lv)
    (h : openItems lv items [] = some []) : Nested R lv items := by
  obtain ⟨F, p, h1, h2, h3, h4⟩ := frame_steps (R := R) items (F := []) (p := .skip) hi trivial (good_skip _) h
  have : F = [] := by simpa using h1
  subst this
  exact ⟨p, by simpa [before, Stmt.items] using h4, h3.1, h3.2⟩

end
end Verif
