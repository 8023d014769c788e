import Verif.Lemmas.Balance
import Verif.Lemmas.Definition
import Verif.Spec.Recover

/-!
# Control words that do not fit are refused
-/

namespace Verif
open Spec Stack

/-- A mark on the control stack stands for an open structure; the cell it remembers is in the code from
`a0` up to `a`. -/
def Stands1 (a0 a : Nat) : Control → Mark → Prop
  | .if_ p, .if_ | .else_ p, .else_ | .while_ p, .while_ | .do_ p _, .do_ | .of_ p, .of_ | .endof p, .endof =>
    a0 + 8 ≤ p ∧ p ≤ a
  | .begin_ _, .begin_ => True
  | .case_, .case_ => True
  | _, _ => False

def Stands (a0 a : Nat) : List Control → List Mark → Prop
  | [], [] => True
  | m :: K, k :: ks => Stands1 a0 a m k ∧ Stands a0 a K ks
  | _, _ => False

section
variable {oc : Bool} {c : Ctx} {R : Refs} {wl : Wordlist} {base : Stack Control} {K : List Control} {ks ks' : List Mark}
  {x y : Buf} {a a0 lv : Nat}

theorem Stands1.mono {e : Nat} (h : a ≤ e) {m : Control} {k : Mark} (hs : Stands1 a0 a m k) : Stands1 a0 e m k := by
  cases m <;> cases k <;> simp only [Stands1] at hs ⊢ <;> omega

theorem Stands.mono {e : Nat} (h : a ≤ e) : ∀ {K : List Control} {ks : List Mark}, Stands a0 a K ks → Stands a0 e K ks
  | [], [], _ => trivial
  | _ :: _, _ :: _, hs => ⟨hs.1.mono h, hs.2.mono h⟩
  | [], _ :: _, hs => hs.elim
  | _ :: _, [], hs => hs.elim

theorem Stands.length : ∀ {K : List Control} {ks : List Mark}, Stands a0 a K ks → K.length = ks.length
  | [], [], _ => rfl
  | _ :: _, _ :: _, hs => by simp [hs.2.length]
  | [], _ :: _, hs => hs.elim
  | _ :: _, [], hs => hs.elim

theorem Stands.do_mem : ∀ {K : List Control} {ks : List Mark}, Stands a0 a K ks →
    (Mark.do_ ∈ ks ↔ ∃ p q, Control.do_ p q ∈ K)
  | [], [], _ => by simp
  | m :: K, k :: ks, hs => by
    have ih := hs.2.do_mem
    have h1 : Mark.do_ = k ↔ ∃ p q, Control.do_ p q = m := by
      have := hs.1
      cases m <;> cases k <;> simp [Stands1] at this ⊢
    simp only [List.mem_cons, ih, h1]
    constructor
    · rintro (⟨p, q, h⟩ | ⟨p, q, h⟩)
      · exact ⟨p, q, .inl h⟩
      · exact ⟨p, q, .inr h⟩
    · rintro ⟨p, q, h | h⟩
      · exact .inl ⟨p, q, h⟩
      · exact .inr ⟨p, q, h⟩
  | [], _ :: _, hs => hs.elim
  | _ :: _, [], hs => hs.elim

theorem Ctl.pop_empty {cs : Stack Control} (h : Ctl base cs []) : cs.pop.1 = base.canary := by
  have h1 := h.rep.1
  have : cs.len = 0 := BitVec.eq_of_toNat_eq (by simpa using h1)
  simp only [Stack.pop, this]
  rw [show (0 : BitVec 8) - 1 = 255 by decide, h.like.slots 255 (.inr (by decide))]
  simp only [holding]
  rw [if_neg (by simp)]
  exact h.guard

/-- The last steps of `ENDCASE`. -/
theorem endcase_ok : ∀ (K : List Control) (ks : List Mark) (fuel : Nat) (x : Buf), K.length < fuel →
    Ready base K x a → Stands a0 a K ks → x.1.start ≤ a0 → closeCase ks = some ks' →
    ∃ y K', (∀ (c : Ctx) (s : VM), endcaseLoop c fuel (s.code x) = .ok ((), s.code y)) ∧ Ready base K' y a ∧
      Stands a0 a K' ks' ∧ Same x y (· < a0)
  | [], [], fuel, x, hf, h, hs, h0, ho => by cases ho
  | m :: K, k :: ks, fuel, x, hf, h, hs, h0, ho => by
    obtain ⟨fuel, rfl⟩ : ∃ f, fuel = f + 1 := ⟨fuel - 1, by simp at hf; omega⟩
    have hs1 := hs.1
    cases k <;> simp only [closeCase, reduceCtorEq] at ho
    · cases m <;> simp only [Stands1] at hs1
      obtain rfl := Option.some.inj ho
      refine ⟨(x.1, x.2.pop.2), K, fun c s => ?_, h.pop, hs.2, ⟨rfl, rfl, fun _ _ => rfl⟩⟩
      simp only [endcaseLoop, M.bind_apply, cPop_apply, VM.code_task, h.ctl.pop.1, getTask_apply]
      simp only [VM.code_setC, VM.code_task, h.ctl.pop.2.noUnderflow]
      simp
    · cases m <;> simp only [Stands1] at hs1
      rename_i p
      have hle := h.le
      obtain ⟨b1, b2, b3⟩ := h.pop.patch (p - 8) (toCell a)
      obtain ⟨y, K', c1, c2, c3, c4⟩ := endcase_ok K ks fuel (x.1.setCell (p - 8) (toCell a), x.2.pop.2)
        (by simp at hf; omega) b1 hs.2 h0 ho
      refine ⟨y, K', fun c s => ?_, c2, c3, ⟨c4.start, c4.cap, fun z hz => ?_⟩⟩
      · simp only [endcaseLoop, M.bind_apply, cPop_apply, VM.code_task, h.ctl.pop.1]
        rw [VM.code_setC, gen_guard s h.ctl.pop.2]
        simp only [M.bind_apply, getHere, VM.code_ds, h.here]
        rw [gen_patch s a p (by omega) (by omega)]
        exact c1 c s
      · rw [c4.bytes z hz]
        exact b2.bytes z (by omega)
  | [], _ :: _, _, _, _, _, hs, _, _ => hs.elim
  | _ :: _, [], _, _, _, _, hs, _, _ => hs.elim

/-- What is needed to go on compiling. -/
structure Step (oc : Bool) (R : Refs) (wl : Wordlist) (base : Stack Control) (a0 a : Nat) (it : Item) (x : Buf)
    (ks' : List Mark) (y : Buf) (K' : List Control) (e : Nat) : Prop where
  gen : ∀ c : Ctx, c.oc = oc → Gen R wl (it.run c) x y
  ready : Ready base K' y e
  stands : Stands a0 e K' ks'
  same : Same x y (· < a0)
  le : a ≤ e
  room : e ≤ a + it.room

/-- An item that may come is compiled. -/
theorem step_ok (hC : Compiler R lv wl) {it : Item} (hi : it.Ordinary wl lv) (h : Ready base K x a)
    (hs : Stands a0 a K ks) (h0 : x.1.start ≤ a0) (ha : a0 ≤ a) (ho : openItem lv it ks = some ks')
    (hl : ks'.length ≤ 64) (room : a + it.room ≤ x.1.limit) :
    ∃ y K' e, Step oc R wl base a0 a it x ks' y K' e := by
  have hle := h.le
  have hlen := hs.length
  have mark : ∀ (m : Control) (k : Mark) (v w : Cell) {p : CorePrim}, a + 40 ≤ x.1.limit → some (k :: ks) = some ks' →
      Stands1 a0 (a + 16) m k →
      (∀ c : Ctx, Gen R wl (coreAction c p) x (x.1.emit2 v w, x.2.push m)) →
      ∃ y K' e, Step oc R wl base a0 a (.imm p) x ks' y K' e := by
    intro m k v w p room h1 h2 h3
    obtain rfl := Option.some.inj h1
    simp only [List.length_cons] at hl
    obtain ⟨b1, b2, -⟩ := h.mark (by omega) (by omega) v w m
    exact ⟨_, _, _, fun c _ => h3 c, b1, ⟨h2, hs.mono (by omega)⟩, ⟨b2.1, b2.2, fun z hz => b2.3 z (by omega)⟩,
      by omega, by simp only [Item.room]; omega⟩
  cases it with
  | lit v =>
    obtain rfl := Option.some.inj ho
    simp only [Item.room] at room
    obtain ⟨b1, b2, -⟩ := h.emit2 (by omega) (toCell R.lit) v
    exact ⟨_, _, _, fun c _ => gen_lit h (by omega) v, b1, hs.mono (by omega),
      ⟨b2.1, b2.2, fun z hz => b2.3 z (by omega)⟩, by omega, by simp only [Item.room]; omega⟩
  | flt v =>
    obtain rfl := Option.some.inj ho
    simp only [Item.room] at room
    have hr := roundUp8_le (a + 8)
    obtain ⟨y, b1, b2, b3, -⟩ := gen_flt (R := R) (wl := wl) h (by omega) v
    exact ⟨y, _, _, fun c _ => b1 c, b2, hs.mono (by omega), ⟨b3.1, b3.2, fun z hz => b3.3 z (by omega)⟩, by omega,
      by simp only [Item.room]; omega⟩
  | str bs =>
    obtain rfl := Option.some.inj ho
    simp only [Item.room] at room
    have hr := roundUp8_le (a + 16 + bs.length)
    obtain ⟨y, b1, b2, b3, -⟩ := gen_str (R := R) (wl := wl) oc h (bs := bs) (by omega) hC.sQuote
    exact ⟨y, _, _, b1, b2, hs.mono (by omega), ⟨b3.1, b3.2, fun z hz => b3.3 z (by omega)⟩, by omega,
      by simp only [Item.room]; omega⟩
  | word i =>
    simp only [Item.room] at room
    obtain ⟨b1, b2, -⟩ := h.emit (by omega) (toCell i)
    have fin : ks' = ks → (∀ c : Ctx, Gen R wl (Item.run c (.word i)) x (x.1.emit (toCell i), x.2)) →
        ∃ y K' e, Step oc R wl base a0 a (.word i) x ks' y K' e := by
      rintro rfl h1
      exact ⟨_, _, _, fun c _ => h1 c, b1, hs.mono (by omega), ⟨b2.1, b2.2, fun z hz => b2.3 z (by omega)⟩, by omega,
        by simp only [Item.room]; omega⟩
    simp only [openItem] at ho
    by_cases hlv : i = lv
    · subst hlv
      rw [if_pos rfl] at ho
      split at ho
      · rename_i hd
        exact fin (Option.some.inj ho).symm fun c => gen_leave h (by omega)
          (by obtain ⟨w, h1, h2⟩ := hC.leave; exact ⟨w, h1, h2⟩) (hs.do_mem.1 hd)
      · cases ho
    · rw [if_neg hlv] at ho
      rcases hi with hi | hi
      · exact absurd hi hlv
      exact fin (Option.some.inj ho).symm fun c => gen_call h (by omega) hi
  | imm p =>
    simp only [Item.Ordinary, controlWords, List.mem_cons, List.not_mem_nil, or_false] at hi
    simp only [openItem] at ho
    simp only [Item.room] at room
    rcases hi with rfl | rfl | rfl | rfl | rfl | rfl | rfl | rfl | rfl | rfl | rfl | rfl | rfl | rfl | rfl | rfl <;>
      simp only [openAfter] at ho
    · exact mark (.if_ (a + 16)) .if_ _ _ room ho (by simp only [Stands1]; omega) fun c => gen_if h (by omega)
    · -- else
      rcases ks with _ | ⟨k, ks⟩
      · cases ho
      rcases K with _ | ⟨m, K⟩
      · exact hs.elim
      cases k <;> try simp only [reduceCtorEq] at ho
      case if_ =>
        obtain rfl := Option.some.inj ho
        have hs1 := hs.1
        cases m <;> simp only [Stands1] at hs1
        rename_i q
        simp only [List.length_cons] at hl hlen
        obtain ⟨b1, b2, -⟩ := h.pop.mark (by simp only; omega) (by omega) (toCell R.branch) 0 (.else_ (a + 16))
        obtain ⟨d1, d2, -⟩ := b1.patch (q - 8) (toCell (a + 16))
        refine ⟨_, _, _, fun c _ => gen_else h (by omega) (by omega) (by omega), d1,
          ⟨by simp only [Stands1]; omega, hs.2.mono (by omega)⟩,
          ⟨d2.1.trans b2.1, d2.2.trans b2.2, fun z hz => (d2.3 z (by omega)).trans (b2.3 z (by omega))⟩, by omega,
          by simp only [Item.room]; omega⟩
    · -- then
      rcases ks with _ | ⟨k, ks⟩
      · cases ho
      rcases K with _ | ⟨m, K⟩
      · exact hs.elim
      cases k <;> try simp only [reduceCtorEq] at ho
      case if_ =>
        obtain rfl := Option.some.inj ho
        have hs1 := hs.1
        cases m <;> simp only [Stands1] at hs1
        rename_i q
        obtain ⟨b1, b2, -⟩ := h.pop.patch (q - 8) (toCell a)
        exact ⟨_, _, _, fun c _ => gen_then_if h (by omega) (by omega), b1, hs.2, ⟨b2.1, b2.2, fun z hz => b2.3 z (by omega)⟩, by omega,
          by simp only [Item.room]; omega⟩
      case else_ =>
        obtain rfl := Option.some.inj ho
        have hs1 := hs.1
        cases m <;> simp only [Stands1] at hs1
        rename_i q
        obtain ⟨b1, b2, -⟩ := h.pop.patch (q - 8) (toCell a)
        exact ⟨_, _, _, fun c _ => gen_then_else h (by omega) (by omega), b1, hs.2, ⟨b2.1, b2.2, fun z hz => b2.3 z (by omega)⟩, by omega,
          by simp only [Item.room]; omega⟩
    · -- begin
      obtain rfl := Option.some.inj ho
      simp only [List.length_cons] at hl
      exact ⟨_, _, _, fun c _ => gen_begin (c := c) h, h.push (by omega) (.begin_ a), ⟨trivial, hs⟩, ⟨rfl, rfl, fun _ _ => rfl⟩,
        by omega, by omega⟩
    · -- until
      rcases ks with _ | ⟨k, ks⟩
      · cases ho
      rcases K with _ | ⟨m, K⟩
      · exact hs.elim
      cases k <;> try simp only [reduceCtorEq] at ho
      case begin_ =>
        obtain rfl := Option.some.inj ho
        have hs1 := hs.1
        cases m <;> simp only [Stands1] at hs1
        rename_i q
        obtain ⟨b1, b2, -⟩ := h.pop.emit2 (by simp only; omega) (toCell R.zeroBranch) (toCell q)
        exact ⟨_, _, _, fun c _ => gen_until h (by omega), b1, hs.2.mono (by omega), ⟨b2.1, b2.2, fun z hz => b2.3 z (by omega)⟩, by omega,
          by simp only [Item.room]; omega⟩
    · -- again
      rcases ks with _ | ⟨k, ks⟩
      · cases ho
      rcases K with _ | ⟨m, K⟩
      · exact hs.elim
      cases k <;> try simp only [reduceCtorEq] at ho
      case begin_ =>
        obtain rfl := Option.some.inj ho
        have hs1 := hs.1
        cases m <;> simp only [Stands1] at hs1
        rename_i q
        obtain ⟨b1, b2, -⟩ := h.pop.emit2 (by simp only; omega) (toCell R.branch) (toCell q)
        exact ⟨_, _, _, fun c _ => gen_again h (by omega), b1, hs.2.mono (by omega), ⟨b2.1, b2.2, fun z hz => b2.3 z (by omega)⟩, by omega,
          by simp only [Item.room]; omega⟩
    · exact mark (.while_ (a + 16)) .while_ _ _ room ho (by simp only [Stands1]; omega) fun c => gen_while h (by omega)
    · -- repeat
      rcases ks with _ | ⟨k, ks⟩
      · cases ho
      rcases K with _ | ⟨m, K⟩
      · exact hs.elim
      cases k <;> try simp only [reduceCtorEq] at ho
      case while_ =>
        rcases ks with _ | ⟨k, ks⟩
        · cases ho
        rcases K with _ | ⟨n, K⟩
        · exact hs.2.elim
        cases k <;> try simp only [reduceCtorEq] at ho
        case begin_ =>
        obtain rfl := Option.some.inj ho
        have hs1 := hs.1
        cases m <;> simp only [Stands1] at hs1
        rename_i q
        have hs2 := hs.2.1
        cases n <;> simp only [Stands1] at hs2
        rename_i b
        have h' : Ready base K (x.1, x.2.pop2.2) a := ⟨h.space, h.here, h.ctl.pop2.2⟩
        obtain ⟨b1, b2, -⟩ := h'.emit2 (by simp only; omega) (toCell R.branch) (toCell b)
        obtain ⟨d1, d2, -⟩ := b1.patch (q - 8) (toCell (a + 16))
        exact ⟨_, _, _, fun c _ => gen_repeat h (by omega) (by omega) (by omega), d1, hs.2.2.mono (by omega),
          ⟨d2.1.trans b2.1, d2.2.trans b2.2, fun z hz => (d2.3 z (by omega)).trans (b2.3 z (by omega))⟩, by omega,
          by simp only [Item.room]; omega⟩
    · exact mark (.do_ (a + 16) (a + 16)) .do_ _ _ room ho (by simp only [Stands1]; omega) fun c => gen_do h (by omega)
    · exact mark (.do_ (a + 16) (a + 16)) .do_ _ _ room ho (by simp only [Stands1]; omega) fun c => gen_qdo h (by omega)
    · -- loop
      rcases ks with _ | ⟨k, ks⟩
      · cases ho
      rcases K with _ | ⟨m, K⟩
      · exact hs.elim
      cases k <;> try simp only [reduceCtorEq] at ho
      case do_ =>
        obtain rfl := Option.some.inj ho
        have hs1 := hs.1
        cases m <;> simp only [Stands1] at hs1
        rename_i q q2
        obtain ⟨b1, b2, -⟩ := h.pop.emit2 (by simp only; omega) (toCell R.loopRt) (toCell q)
        obtain ⟨d1, d2, -⟩ := b1.patch (q - 8) (toCell (a + 16))
        exact ⟨_, _, _, fun c _ => gen_loop h (by omega) (by omega) (by omega) false, d1, hs.2.mono (by omega),
          ⟨d2.1.trans b2.1, d2.2.trans b2.2, fun z hz => (d2.3 z (by omega)).trans (b2.3 z (by omega))⟩, by omega,
          by simp only [Item.room]; omega⟩
    · -- +loop
      rcases ks with _ | ⟨k, ks⟩
      · cases ho
      rcases K with _ | ⟨m, K⟩
      · exact hs.elim
      cases k <;> try simp only [reduceCtorEq] at ho
      case do_ =>
        obtain rfl := Option.some.inj ho
        have hs1 := hs.1
        cases m <;> simp only [Stands1] at hs1
        rename_i q q2
        obtain ⟨b1, b2, -⟩ := h.pop.emit2 (by simp only; omega) (toCell R.plusLoopRt) (toCell q)
        obtain ⟨d1, d2, -⟩ := b1.patch (q - 8) (toCell (a + 16))
        exact ⟨_, _, _, fun c _ => gen_loop h (by omega) (by omega) (by omega) true, d1, hs.2.mono (by omega),
          ⟨d2.1.trans b2.1, d2.2.trans b2.2, fun z hz => (d2.3 z (by omega)).trans (b2.3 z (by omega))⟩, by omega,
          by simp only [Item.room]; omega⟩
    · -- case
      obtain rfl := Option.some.inj ho
      simp only [List.length_cons] at hl
      exact ⟨_, _, _, fun c _ => gen_case (c := c), h.push (by omega) .case_, ⟨trivial, hs⟩, ⟨rfl, rfl, fun _ _ => rfl⟩,
        by omega, by omega⟩
    · -- of
      rcases ks with _ | ⟨k, ks⟩
      · cases ho
      rcases K with _ | ⟨m, K⟩
      · exact hs.elim
      cases k <;> try simp only [reduceCtorEq] at ho
      case case_ =>
        obtain rfl := Option.some.inj ho
        have hs1 := hs.1
        cases m <;> simp only [Stands1] at hs1
        simp only [List.length_cons] at hl hlen
        have b0 := h.pop.push (by omega) .case_
        obtain ⟨b1, b2, -⟩ := b0.of (by simp only; omega) (by simp only [List.length_cons]; omega) R
        exact ⟨_, _, _, fun c _ => gen_of (.inl rfl) h (by omega), b1,
          ⟨by simp only [Stands1]; omega, trivial, hs.2.mono (by omega)⟩, ⟨b2.1, b2.2, fun z hz => b2.3 z (by omega)⟩,
          by omega, by simp only [Item.room]; omega⟩
      case endof =>
        obtain rfl := Option.some.inj ho
        have hs1 := hs.1
        cases m <;> simp only [Stands1] at hs1
        rename_i q
        simp only [List.length_cons] at hl hlen
        have b0 := h.pop.push (by omega) (.endof q)
        obtain ⟨b1, b2, -⟩ := b0.of (by simp only; omega) (by simp only [List.length_cons]; omega) R
        exact ⟨_, _, _, fun c _ => gen_of (.inr ⟨q, rfl⟩) h (by omega), b1,
          ⟨by simp only [Stands1]; omega, by simp only [Stands1]; omega, hs.2.mono (by omega)⟩, ⟨b2.1, b2.2, fun z hz => b2.3 z (by omega)⟩,
          by omega, by simp only [Item.room]; omega⟩
    · -- endof
      rcases ks with _ | ⟨k, ks⟩
      · cases ho
      rcases K with _ | ⟨m, K⟩
      · exact hs.elim
      cases k <;> try simp only [reduceCtorEq] at ho
      case of_ =>
        obtain rfl := Option.some.inj ho
        have hs1 := hs.1
        cases m <;> simp only [Stands1] at hs1
        rename_i q
        simp only [List.length_cons] at hl hlen
        obtain ⟨b1, b2, -⟩ := h.pop.mark (by simp only; omega) (by omega) (toCell R.branch) 0 (.endof (a + 16))
        obtain ⟨d1, d2, -⟩ := b1.patch (q - 8) (toCell (a + 16))
        refine ⟨_, _, _, fun c _ => gen_endof h (by omega) (by omega) (by omega), d1,
          ⟨by simp only [Stands1]; omega, hs.2.mono (by omega)⟩,
          ⟨d2.1.trans b2.1, d2.2.trans b2.2, fun z hz => (d2.3 z (by omega)).trans (b2.3 z (by omega))⟩, by omega,
          by simp only [Item.room]; omega⟩
    · -- endcase
      obtain ⟨b1, b2, -⟩ := h.emit (by omega) (toCell R.drop)
      have hl' := h.ctl.len
      obtain ⟨y, K', c1, c2, c3, c4⟩ := endcase_ok (a := a + 8) K ks 1024 (x.1.emit (toCell R.drop), x.2)
        (by omega) b1 (hs.mono (by omega)) h0 ho
      refine ⟨y, K', a + 8, fun c _ s hR _ => ?_, c2, c3, b2.trans c4 fun z hz => ⟨?_, hz⟩, by omega,
        by simp only [Item.room]; omega⟩
      · have hh := h.here
        simp only [Item.run, coreAction, immEndcase, M.bind_apply, getRefs_apply, VM.code_refs]
        rw [gen_word s h.space (by omega), hR]
        exact c1 c s
      · show z < a
        have : z < a0 := hz
        omega

/-! ### Refusal -/

/-- The last steps of an `ENDCASE` that does not fit. -/
theorem endcase_bad (hcan : base.canary = .canary ∨ base.canary = .default) :
    ∀ (K : List Control) (ks : List Mark) (fuel : Nat) (x : Buf), K.length < fuel →
    Ready base K x a → Stands a0 a K ks → x.1.start ≤ a0 → closeCase ks = none →
    ∃ y, (∀ (c : Ctx) (s : VM), endcaseLoop c fuel (s.code x) = abortWith c .controlStructureMismatch (s.code y)) ∧
      Same x y (· < a0) ∧ a ≤ y.1.here
  | [], [], fuel, x, hf, h, hs, h0, ho => by
    obtain ⟨fuel, rfl⟩ : ∃ f, fuel = f + 1 := ⟨fuel - 1, by simp at hf; omega⟩
    refine ⟨(x.1, x.2.pop.2), fun c s => ?_, ⟨rfl, rfl, fun _ _ => rfl⟩, Nat.le_of_eq h.here.symm⟩
    have := h.ctl.pop_empty
    simp only [endcaseLoop, M.bind_apply, cPop_apply, VM.code_task, this]
    rcases hcan with e | e <;> rw [e] <;> simp only [VM.code_setC]
  | m :: K, k :: ks, fuel, x, hf, h, hs, h0, ho => by
    obtain ⟨fuel, rfl⟩ : ∃ f, fuel = f + 1 := ⟨fuel - 1, by simp at hf; omega⟩
    have hs1 := hs.1
    cases k <;> simp only [closeCase, reduceCtorEq] at ho
    case endof =>
      cases m <;> simp only [Stands1] at hs1
      rename_i p
      have hle := h.le
      obtain ⟨b1, b2, b3⟩ := h.pop.patch (p - 8) (toCell a)
      obtain ⟨y, c1, c4, c5⟩ := endcase_bad hcan K ks fuel (x.1.setCell (p - 8) (toCell a), x.2.pop.2)
        (by simp at hf; omega) b1 hs.2 h0 ho
      refine ⟨y, fun c s => ?_, ⟨c4.start, c4.cap, fun z hz => ?_⟩, c5⟩
      · simp only [endcaseLoop, M.bind_apply, cPop_apply, VM.code_task, h.ctl.pop.1]
        rw [VM.code_setC, gen_guard s h.ctl.pop.2]
        simp only [M.bind_apply, getHere, VM.code_ds, h.here]
        rw [gen_patch s a p (by omega) (by omega)]
        exact c1 c s
      · rw [c4.bytes z hz]
        exact b2.bytes z (by omega)
    all_goals
      cases m <;> simp only [Stands1] at hs1
      refine ⟨(x.1, x.2.pop.2), fun c s => ?_, ⟨rfl, rfl, fun _ _ => rfl⟩, Nat.le_of_eq h.here.symm⟩
      simp only [endcaseLoop, M.bind_apply, cPop_apply, VM.code_task, h.ctl.pop.1, VM.code_setC]
  | [], _ :: _, _, _, _, _, hs, _, _ => hs.elim
  | _ :: _, [], _, _, _, _, hs, _, _ => hs.elim

/-- An item that may not come is refused. -/
theorem step_bad (hC : Compiler R lv wl) (hcan : base.canary = .canary ∨ base.canary = .default) {it : Item}
    (hi : it.Ordinary wl lv) (h : Ready base K x a)
    (hs : Stands a0 a K ks) (h0 : x.1.start ≤ a0) (ha : a0 ≤ a) (ho : openItem lv it ks = none)
    (room : a + it.room ≤ x.1.limit) :
    ∃ y, Same x y (· < a0) ∧ a ≤ y.1.here ∧ ∀ (c : Ctx) (s : VM), s.refs = R → s.wl = wl →
      it.run c (s.code x) = abortWith c .controlStructureMismatch (s.code y) := by
  have hle := h.le
  cases it with
  | lit v => cases ho
  | flt v => cases ho
  | str bs => cases ho
  | word i =>
    simp only [openItem] at ho
    by_cases hlv : i = lv
    · subst hlv
      rw [if_pos rfl] at ho
      by_cases hd : Mark.do_ ∈ ks
      · rw [if_pos hd] at ho; cases ho
      refine ⟨x, ⟨rfl, rfl, fun _ _ => rfl⟩, Nat.le_of_eq h.here.symm, fun c s hR hwl => ?_⟩
      obtain ⟨w, h1, h2⟩ := hC.leave
      simp only [Item.run, M.bind_apply]
      rw [wordAt_ok (w := w) (by rw [VM.code_wl, hwl, h1])]
      have hn : leavePart (s.code x) = .ok (none, s.code x) := by
        unfold leavePart
        rw [asList_reverse, VM.code_task, h.ctl.rep.items_eq]
        refine congrArg (fun z => Except.ok (z, s.code x)) ?_
        rw [List.findSome?_eq_none_iff]
        intro m hm
        have : ¬ ∃ p q, Control.do_ p q ∈ K := fun h => hd (hs.do_mem.2 h)
        split
        · exact absurd ⟨_, _, hm⟩ this
        · rfl
      simp only [h2, compSemRun, compileLeave, M.bind_apply, hn]
    · rw [if_neg hlv] at ho; cases ho
  | imm p =>
    simp only [Item.Ordinary, controlWords, List.mem_cons, List.not_mem_nil, or_false] at hi
    simp only [openItem] at ho
    simp only [Item.room] at room
    have popped : Same x (x.1, x.2.pop.2) (· < a0) := ⟨rfl, rfl, fun _ _ => rfl⟩
    have empty : K = [] → ∀ s : VM, ∃ m, (m = .canary ∨ m = .default) ∧
        cPop (s.code x) = .ok (m, s.code (x.1, x.2.pop.2)) := by
      rintro rfl s
      refine ⟨_, hcan, ?_⟩
      rw [cPop_apply, VM.code_task, h.ctl.pop_empty, VM.code_setC]
    have full : ∀ m K', K = m :: K' → ∀ s : VM, cPop (s.code x) = .ok (m, s.code (x.1, x.2.pop.2)) := by
      rintro m K' rfl s
      rw [cPop_apply, VM.code_task, h.ctl.pop.1, VM.code_setC]
    rcases hi with rfl | rfl | rfl | rfl | rfl | rfl | rfl | rfl | rfl | rfl | rfl | rfl | rfl | rfl | rfl | rfl <;>
      simp only [openAfter, reduceCtorEq] at ho
    · -- else
      refine ⟨_, popped, Nat.le_of_eq h.here.symm, fun c s _ _ => ?_⟩
      rcases K with _ | ⟨m, K⟩
      · obtain ⟨m, hm, e⟩ := empty rfl s
        simp only [Item.run, coreAction, immElse]
        rw [M.bind_ok e]
        rcases hm with rfl | rfl <;> rfl
      rcases ks with _ | ⟨k, ks⟩
      · exact hs.elim
      have hs1 := hs.1
      simp only [Item.run, coreAction, immElse]
      rw [M.bind_ok (full m K rfl s)]
      cases m <;> cases k <;> simp only [Stands1, reduceCtorEq] at hs1 ho <;> rfl
    · -- then
      refine ⟨_, popped, Nat.le_of_eq h.here.symm, fun c s _ _ => ?_⟩
      rcases K with _ | ⟨m, K⟩
      · obtain ⟨m, hm, e⟩ := empty rfl s
        simp only [Item.run, coreAction, immThen]
        rw [M.bind_ok e]
        rcases hm with rfl | rfl <;> rfl
      rcases ks with _ | ⟨k, ks⟩
      · exact hs.elim
      have hs1 := hs.1
      simp only [Item.run, coreAction, immThen]
      rw [M.bind_ok (full m K rfl s)]
      cases m <;> cases k <;> simp only [Stands1, reduceCtorEq] at hs1 ho <;> rfl
    · -- until
      refine ⟨_, popped, Nat.le_of_eq h.here.symm, fun c s _ _ => ?_⟩
      rcases K with _ | ⟨m, K⟩
      · obtain ⟨m, hm, e⟩ := empty rfl s
        simp only [Item.run, coreAction, immUntil]
        rw [M.bind_ok e]
        rcases hm with rfl | rfl <;> rfl
      rcases ks with _ | ⟨k, ks⟩
      · exact hs.elim
      have hs1 := hs.1
      simp only [Item.run, coreAction, immUntil]
      rw [M.bind_ok (full m K rfl s)]
      cases m <;> cases k <;> simp only [Stands1, reduceCtorEq] at hs1 ho <;> rfl
    · -- again
      refine ⟨_, popped, Nat.le_of_eq h.here.symm, fun c s _ _ => ?_⟩
      rcases K with _ | ⟨m, K⟩
      · obtain ⟨m, hm, e⟩ := empty rfl s
        simp only [Item.run, coreAction, immAgain]
        rw [M.bind_ok e]
        rcases hm with rfl | rfl <;> rfl
      rcases ks with _ | ⟨k, ks⟩
      · exact hs.elim
      have hs1 := hs.1
      simp only [Item.run, coreAction, immAgain]
      rw [M.bind_ok (full m K rfl s)]
      cases m <;> cases k <;> simp only [Stands1, reduceCtorEq] at hs1 ho <;> rfl
    · -- repeat
      refine ⟨(x.1, x.2.pop2.2), ⟨rfl, rfl, fun _ _ => rfl⟩, Nat.le_of_eq h.here.symm, fun c s _ _ => ?_⟩
      simp only [Item.run, coreAction, immRepeat, VM.code_task]
      rw [VM.code_setC]
      rcases K with _ | ⟨m, K⟩
      · have e : x.2.pop2.1.2 = base.canary := h.ctl.pop_empty
        generalize x.2.pop2.1 = pr at e ⊢
        obtain ⟨u, v⟩ := pr
        simp only at e
        subst e
        rcases hcan with e | e <;> rw [e] <;> cases u <;> rfl
      rcases ks with _ | ⟨k, ks⟩
      · exact hs.elim
      have hs1 := hs.1
      have e : x.2.pop2.1.2 = m := h.ctl.pop.1
      rcases K with _ | ⟨n, K⟩
      · have e' : x.2.pop2.1.1 = base.canary := by
          show x.2.inner (x.2.len - 2) = _
          rw [show x.2.len - 2 = x.2.len - 1 - 1 by bv_omega]
          exact h.ctl.pop.2.pop_empty
        generalize x.2.pop2.1 = pr at e e' ⊢
        obtain ⟨u, v⟩ := pr
        simp only at e e'
        subst e e'
        rcases hcan with e | e <;> rw [e] <;> rfl
      rcases ks with _ | ⟨k', ks⟩
      · exact hs.2.elim
      have hs2 := hs.2.1
      rw [h.ctl.pop2.1]
      cases m <;> cases k <;> simp only [Stands1] at hs1 <;> cases n <;> cases k' <;>
        simp only [Stands1, reduceCtorEq] at hs2 ho <;> rfl
    · -- loop
      refine ⟨_, popped, Nat.le_of_eq h.here.symm, fun c s _ _ => ?_⟩
      rcases K with _ | ⟨m, K⟩
      · obtain ⟨m, hm, e⟩ := empty rfl s
        simp only [Item.run, coreAction, immLoop, immLoopWith]
        rw [M.bind_ok e]
        rcases hm with rfl | rfl <;> rfl
      rcases ks with _ | ⟨k, ks⟩
      · exact hs.elim
      have hs1 := hs.1
      simp only [Item.run, coreAction, immLoop, immLoopWith]
      rw [M.bind_ok (full m K rfl s)]
      cases m <;> cases k <;> simp only [Stands1, reduceCtorEq] at hs1 ho <;> rfl
    · -- +loop
      refine ⟨_, popped, Nat.le_of_eq h.here.symm, fun c s _ _ => ?_⟩
      rcases K with _ | ⟨m, K⟩
      · obtain ⟨m, hm, e⟩ := empty rfl s
        simp only [Item.run, coreAction, immPlusLoop, immLoopWith]
        rw [M.bind_ok e]
        rcases hm with rfl | rfl <;> rfl
      rcases ks with _ | ⟨k, ks⟩
      · exact hs.elim
      have hs1 := hs.1
      simp only [Item.run, coreAction, immPlusLoop, immLoopWith]
      rw [M.bind_ok (full m K rfl s)]
      cases m <;> cases k <;> simp only [Stands1, reduceCtorEq] at hs1 ho <;> rfl
    · -- of
      refine ⟨_, popped, Nat.le_of_eq h.here.symm, fun c s _ _ => ?_⟩
      rcases K with _ | ⟨m, K⟩
      · obtain ⟨m, hm, e⟩ := empty rfl s
        simp only [Item.run, coreAction, immOf]
        rw [M.bind_ok e]
        rcases hm with rfl | rfl <;> rfl
      rcases ks with _ | ⟨k, ks⟩
      · exact hs.elim
      have hs1 := hs.1
      simp only [Item.run, coreAction, immOf]
      rw [M.bind_ok (full m K rfl s)]
      cases m <;> cases k <;> simp only [Stands1, reduceCtorEq] at hs1 ho <;> rfl
    · -- endof
      refine ⟨_, popped, Nat.le_of_eq h.here.symm, fun c s _ _ => ?_⟩
      rcases K with _ | ⟨m, K⟩
      · obtain ⟨m, hm, e⟩ := empty rfl s
        simp only [Item.run, coreAction, immEndof]
        rw [M.bind_ok e]
        rcases hm with rfl | rfl <;> rfl
      rcases ks with _ | ⟨k, ks⟩
      · exact hs.elim
      have hs1 := hs.1
      simp only [Item.run, coreAction, immEndof]
      rw [M.bind_ok (full m K rfl s)]
      cases m <;> cases k <;> simp only [Stands1, reduceCtorEq] at hs1 ho <;> rfl
    · -- endcase
      obtain ⟨b1, b2, -⟩ := h.emit (by omega) (toCell R.drop)
      have hl' := h.ctl.len
      obtain ⟨y, c1, c4, c5⟩ := endcase_bad (a := a + 8) hcan K ks 1024 (x.1.emit (toCell R.drop), x.2)
        (by omega) b1 (hs.mono (by omega)) h0 ho
      refine ⟨y, b2.trans c4 fun z hz => ⟨?_, hz⟩, by omega, fun c s hR _ => ?_⟩
      · show z < a
        have : z < a0 := hz
        omega
      · have hh := h.here
        simp only [Item.run, coreAction, immEndcase, M.bind_apply, getRefs_apply, VM.code_refs]
        rw [gen_word s h.space (by omega), hR]
        exact c1 c s

/-- Items that may come are compiled. -/
theorem steps_ok (hC : Compiler R lv wl) : ∀ (items : List Item) {K : List Control} {ks : List Mark} {x : Buf} {a : Nat},
    (∀ it ∈ items, it.Ordinary wl lv) → Ready base K x a → Stands a0 a K ks → x.1.start ≤ a0 → a0 ≤ a →
    openItems lv items ks = some ks' → (∀ l M, l <+: items → openItems lv l ks = some M → M.length ≤ 64) →
    a + itemsRoom items ≤ x.1.limit →
    ∃ y K' e, Gens oc R wl base a0 items x y ∧ Ready base K' y e ∧ Stands a0 e K' ks' ∧ Same x y (· < a0) ∧ a ≤ e ∧
      e ≤ a + itemsRoom items
  | [], K, ks, x, a, _, h, hs, _, _, ho, _, _ => by
    obtain rfl := Option.some.inj ho
    exact ⟨x, K, a, .nil, h, hs, ⟨rfl, rfl, fun _ _ => rfl⟩, Nat.le_refl _, by omega⟩
  | it :: items, K, ks, x, a, hi, h, hs, h0, ha, ho, hl, room => by
    simp only [openItems] at ho
    obtain ⟨ks1, h1, h2⟩ := Option.bind_eq_some_iff.1 ho
    simp only [itemsRoom, List.map_cons, List.sum_cons] at room ⊢
    obtain ⟨y, K1, e, st⟩ := step_ok (oc := oc) (base := base) hC (hi it (by simp)) h hs h0 ha h1
      (hl [it] ks1 ⟨items, rfl⟩ (by simp [openItems, h1])) (by omega)
    have hlim := st.same.limit
    have hst := st.same.start
    have := st.room
    have := st.le
    obtain ⟨z, K2, e2, g1, g2, g3, g4, g5, g6⟩ := steps_ok hC items (ks := ks1) (fun j hj => hi j (by simp [hj])) st.ready st.stands
      (by omega) (by omega) h2
      (fun l M hp hM => hl (it :: l) M (List.cons_prefix_cons.2 ⟨rfl, hp⟩) (by simp [openItems, h1, hM]))
      (by simp only [itemsRoom]; omega)
    simp only [itemsRoom] at g6
    exact ⟨z, K2, e2, .cons st.gen st.ready (by omega) st.same g1, g2, g3, st.same.trans g4 fun _ hz => ⟨hz, hz⟩, by omega, by omega⟩

end

/-- The first item that may not come. -/
theorem openItems_none {lv : Nat} : ∀ (items : List Item) {ks : List Mark}, openItems lv items ks = none →
    ∃ l it m ks', items = l ++ it :: m ∧ openItems lv l ks = some ks' ∧ openItem lv it ks' = none
  | [], _, h => by cases h
  | it :: items, ks, h => by
    simp only [openItems] at h
    cases h1 : openItem lv it ks with
    | none => exact ⟨[], it, items, ks, rfl, rfl, h1⟩
    | some ks1 =>
      rw [h1] at h
      obtain ⟨l, jt, m, ks2, e, h2, h3⟩ := openItems_none items h
      exact ⟨it :: l, jt, m, ks2, by rw [e]; rfl, by simp [openItems, h1, h2], h3⟩

theorem Spec.Written.split {f : FloatOps} {s : VM} : ∀ {l m : List Item} {text rest : List Char}, Written f s text (l ++ m) rest →
    ∃ mid, Written f s text l mid ∧ Written f s mid m rest
  | [], _, text, _, h => ⟨text, .done, h⟩
  | i :: l, m, _, _, h => by
    cases h with
    | token h1 h2 h3 h4 h5 h6 =>
      obtain ⟨mid, e1, e2⟩ := h6.split
      exact ⟨mid, .token h1 h2 h3 h4 h5 e1, e2⟩
    | string h1 h2 h3 h4 h5 h6 h7 h8 h9 h10 =>
      obtain ⟨mid, e1, e2⟩ := h10.split
      exact ⟨mid, .string h1 h2 h3 h4 h5 h6 h7 h8 h9 e1, e2⟩

/-! ### Text -/

/-- What an abort with a handler that does nothing leaves. -/
structure Silenced (u t : VM) : Prop where
  tkn : t.tkn = u.tkn
  forward : t.forward = u.forward
  refs : t.refs = u.refs
  handler : t.handler = u.handler
  data : t.task.s = u.task.s.reset
  floats : t.task.f = u.task.f.reset
  control : t.task.c = u.task.c.reset
  ret : t.task.r = u.task.r
  ip : t.task.st.ip = u.task.st.ip
  inbuf : t.task.inbuf = u.task.inbuf

/-- What an abort does when the handler does nothing. -/
theorem abort_silent {cfg : Cfg} {k : Nat} {e : Exn} {u : VM} {w : Word} (hw : u.wl.words[u.handler]? = some w)
    (ha : w.action = .core .noop) :
    ∃ t, abortWith ⟨cfg, execWord cfg (k + 1)⟩ e u = .ok ((), t) ∧ t.lastError = some e ∧ t.wl = u.wl ∧ t.ds = u.ds ∧
      t.cur = u.cur ∧ Silenced u t := by
  have ht : (u.aborted e).task = { u.task with s := u.task.s.reset, f := u.task.f.reset, c := u.task.c.reset,
                                               st := { u.task.st with abortedWp := u.task.st.wp } } := VM.task_setTask u _
  refine ⟨(u.aborted e).setTask { (u.aborted e).task with st := { (u.aborted e).task.st with wp := u.handler } }, ?_, rfl, rfl, rfl, rfl,
    ⟨rfl, rfl, rfl, rfl, ?_, ?_, ?_, ?_, ?_, ?_⟩⟩
  · rw [abortWith_run]
    have hw' : (u.aborted e).wl.words[u.handler]? = some w := hw
    simp only [execWord, M.bind_apply, modSt_apply, getWl_apply]
    rw [show ((u.aborted e).setTask { (u.aborted e).task with st := { (u.aborted e).task.st with wp := u.handler } }).wl = (u.aborted e).wl from rfl, hw']
    simp only [ha]
    rfl
  all_goals rw [VM.task_setTask, ht]

theorem calm_reset {α : Type} (st : Stack α) : Calm st.reset :=
  ⟨by rw [(rep_reset st).items_eq]; simp, rfl, rfl⟩

/-- Evaluation stops at an error. -/
theorem stop {cfg : Cfg} {depth : Nat} {s s1 s2 : VM} {t : List Char} {e : Exn} (h1 : parseWord s = .ok ((), s1))
    (ht : s1.tkn = some t) (hne : t ≠ []) (h2 : evalToken (ctx cfg depth) s1 = .ok ((), s2))
    (he : s2.lastError = some e) (fuel : Nat) :
    evaluateInput cfg depth (fuel + 1) s = .ok ((), s2) := by
  have hne' : ¬ s1.tkn = some [] := by rw [ht]; simp [hne]
  unfold evaluateInput
  simp only [M.bind_apply, h1, getVM_apply]
  rw [if_neg hne']
  simp [M.bind_apply, h2, getError_apply, he]

/-- The machine `s1` has read `: name` and is compiling. -/
structure Opened (s : VM) (nm : List Byte) (dfa : Nat) (s1 : VM) : Prop where
  typing : Typing s1
  refs : s1.refs = s.refs
  wl : s1.wl = colonList s nm dfa true
  handler : s1.handler = s.handler
  named : Named s nm dfa s1.ds
  here : s1.ds.here = dfa
  cap : s1.ds.cap = s.ds.cap
  control : s1.task.c = s.task.c
  forward : s1.forward = s.forward
  inbuf : s1.task.inbuf = s.task.inbuf

/-- What is left when a definition has been refused. -/
theorem Opened.stopped {s s1 t : VM} {nm : List Byte} {dfa n wp : Nat} {y : Buf} {tok : List Char} (hO : Opened s nm dfa s1)
    (hL : Listening s) (h1 : t.wl = s1.wl) (h2 : t.ds = y.1) (hs : Silenced ((s1.seen n tok wp).code y) t)
    (h3 : Same (s1.ds, s1.task.c) y (· < dfa)) (h4 : dfa ≤ y.1.here) :
    (∀ nm r, Newest t nm r ↔ Newest s nm r) ∧ Keeps s t ∧ (t.ds.len ≤ t.ds.cap → Halted t) ∧ dfa ≤ t.ds.here ∧
      t.wl.words.length = s.wl.words.length + 1 := by
  have hT := hO.typing
  have hN1 := hO.named
  have hwl := h1.trans hO.wl
  have hnm : Named s nm dfa t.ds := by
    rw [h2]
    exact hN1.congr h3.start h3.bytes h4
  have hst : t.ds.start = s1.ds.start := by rw [h2]; exact h3.start
  have hcp : t.ds.cap = s1.ds.cap := by rw [h2]; exact h3.cap
  have hpc : pc t = pc s1 := by
    have := hs.ip
    rw [VM.code_task, VM.seen_task] at this
    simp only [pc, this]
  refine ⟨hnm.newest_hidden hL.dict hwl, ⟨fun i w h => colonList_old hwl h, hs.refs.trans hO.refs, hs.handler.trans hO.handler, ?_, ?_, ?_, ?_⟩,
    fun hin => ⟨?_, ?_, hnm.dict hL.dict hwl, ?_, ?_, ?_, ?_, ?_, ?_⟩, by rw [h2]; exact h4, by rw [hwl]; simp [colonList, Wordlist.push]⟩
  · rw [hst, hN1.start]
  · rw [hcp, hO.cap]
  · have h1 := hL.space.vars
    have : s.ds.here = s.ds.start + s.ds.len := rfl
    simp only [baseOf, DataSpace.baseAddr, hnm.start]
    rw [DataSpace.cellAt_congr fun z _ hz => hnm.below z (by omega)]
  · rw [hs.inbuf, VM.code_task, VM.seen_task]; exact hO.inbuf
  · rw [hs.tkn]; rfl
  · have := hT.idle
    simp only [Idle, hpc, DataSpace.limit, hst, hcp] at this ⊢
    exact this
  · have h5 := hT.space
    refine ⟨by rw [hst]; exact h5.pos, by rw [hst]; exact h5.aligned, by rw [hst, hcp]; exact h5.small, ?_, hin⟩
    have h6 := h5.vars
    have h7 : s1.ds.start + s1.ds.len = dfa := hO.here
    have h8 : dfa ≤ t.ds.start + t.ds.len := by rw [h2]; exact h4
    omega
  · rw [hs.data]; exact calm_reset _
  · rw [hs.floats]; exact calm_reset _
  · rw [hs.control]; exact calm_reset _
  · rw [hs.control]; exact (rep_reset _).items_eq
  · rw [hs.forward]; exact hO.forward.trans hL.labels

/-- `: name` opens a definition. -/
theorem definition_opens {cfg : Cfg} {depth : Nat} {s : VM} (hL : Listening s) {pre text name tc t1 t2 : List Char}
    {ic : Nat} {wc : Word} (hin : Reading s.task pre text) (hr1 : Reads text tc t1) (hr2 : Reads t1 name t2)
    (n1 : Newest s (utf8 tc) (some ic)) (n2 : s.wl.words[ic]? = some wc) (n3 : wc.action = .core .colon)
    (n4 : wc.isCompileOnly = false) {dfa : Nat}
    (hdfa : dfa = roundUp8 (s.ds.here + 8 + (utf8 (name.map lowerChar)).length)) (room : dfa ≤ s.ds.limit) :
    ∃ s1 pre1, Opened s (utf8 (name.map lowerChar)) dfa s1 ∧ inputBuffer s1.task = .ok (some (pre1 ++ t2)) ∧
      byteLen (pre1 ++ t2) < 2 ^ 63 ∧ ∀ fuel, evaluateInput cfg (depth + 2) (fuel + 2) s =
        evaluateInput cfg (depth + 2) (fuel + 1) ((s1.seen (byteLen pre1) (name.map lowerChar) ic).code (s1.ds, s1.task.c)) := by
  obtain ⟨b1, rfl, hb1, hne1, hnb1, he1⟩ := hr1
  obtain ⟨hin1, hin2, hin3⟩ := hin
  obtain ⟨tk0, htk⟩ := Option.isSome_iff_exists.1 hL.token
  have hself : s.seen (byteLen pre) tk0 s.task.st.wp = s := by rw [← hin2]; exact s.seen_self tk0 htk
  have hp1 := seen_parseWord (x := (s.ds, s.task.c)) (tk := tk0) (wp := s.task.st.wp) hin1 hin3 hb1 hne1 hnb1 he1
  have ecode : ∀ n tk wp, (s.seen n tk wp).code (s.ds, s.task.c) = s.seen n tk wp := by
    intro n tk wp
    have := (s.seen n tk wp).code_self
    rw [VM.seen_task] at this
    exact this
  rw [ecode, ecode, hself] at hp1
  have ea : (pre ++ (b1 ++ tc)) ++ t1 = pre ++ (b1 ++ (tc ++ t1)) := by simp
  obtain ⟨o, d, mid, rfl, hH, -, hcol⟩ := colon_ok (c := ⟨cfg, execWord cfg (depth + 1)⟩) (tc := tc) (ic := ic) hL
    (pre := pre ++ (b1 ++ tc)) (by rw [ea]; exact hin1) (by rw [ea]; exact hin3) hr2 (by omega)
  rw [← hdfa] at hcol
  generalize hnm : utf8 (name.map lowerChar) = nm at *
  have hN : Named s nm dfa d := by rw [hdfa]; exact hH.named hL.space
  generalize hs1 : s.opened (colonList s nm dfa true) o d true = s1 at *
  have hds : s1.ds = d := by rw [← hs1]; rfl
  have hwl : s1.wl = colonList s nm dfa true := by rw [← hs1]; rfl
  have hrefs : s1.refs = s.refs := by rw [← hs1]; rfl
  have herr : s1.lastError = none := by rw [← hs1]; exact hL.noError
  have htask : s1.task = { s.task with st := { s.task.st with isCompiling := true } } := by rw [← hs1, VM.opened_task]
  have hlim : d.limit = s.ds.limit := by simp only [DataSpace.limit, hH.start, hH.cap]
  have hidle : Idle s1 := by
    have := hL.idle
    simp only [Idle, pc, htask, hds, hlim, hH.start] at this ⊢
    exact this
  have hspace : SoundSpace d := by
    have h1 := hL.space
    refine ⟨by rw [hH.start]; exact h1.pos, by rw [hH.start]; exact h1.aligned, by rw [hH.start, hH.cap]; exact h1.small, ?_, hH.inside⟩
    have h2 := hH.here; have h3 := hH.start; have h4 := h1.vars; have h5 := (roundUp8_le (s.ds.here + 8 + nm.length)).1
    simp only [DataSpace.here] at h2 h5
    omega
  have hT : Typing s1 := by
    refine ⟨by rw [htask], herr, hidle, ?_, by rw [hds]; exact hspace, ?_, ?_, ?_, ?_⟩
    · exact (show Named s nm dfa s1.ds by rw [hds]; exact hN).dict hL.dict hwl
    · rw [htask]; exact hL.data
    · rw [htask]; exact hL.ret
    · rw [htask]; exact hL.floats
    · rw [htask]; exact hL.control
  have hev1 : evalToken (ctx cfg (depth + 2)) (s.seen (byteLen (pre ++ (b1 ++ tc))) tc s.task.st.wp) =
      .ok ((), s1.seen (byteLen (pre ++ (b1 ++ tc) ++ mid)) (name.map lowerChar) ic) := by
    have hf := hL.dict.find ⟨hL.space.small, hL.space.inside⟩ (ctx cfg (depth + 2)) (utf8 tc)
    obtain ⟨r, f1, f2⟩ := hf
    obtain rfl := Newest.unique f2 n1
    have f3 := find_congr (s := s) (s' := (s.seen (byteLen (pre ++ (b1 ++ tc))) tc s.task.st.wp).setTkn none) rfl rfl f1
    have hic : (s.seen (byteLen (pre ++ (b1 ++ tc))) tc s.task.st.wp).task.st.isCompiling = false := by
      rw [VM.seen_task]; exact hL.interpreting
    simp only [evalToken, M.bind_apply, getSt_apply, hic, Bool.false_eq_true, if_false]
    unfold interpretToken
    rw [M.bind_ok (takeToken_run (t := tc) rfl), M.bind_ok f3]
    have e : ((s.seen (byteLen (pre ++ (b1 ++ tc))) tc s.task.st.wp).setTkn none).setTkn (some tc) =
      s.seen (byteLen (pre ++ (b1 ++ tc))) tc s.task.st.wp := rfl
    simp only [M.bind_apply, putToken_run, e]
    rw [wordAt_ok (s := s.seen (byteLen (pre ++ (b1 ++ tc))) tc s.task.st.wp) (w := wc) n2]
    simp only [n4, Bool.false_eq_true, if_false, ctx]
    rw [← ecode, execWord_seen n2, n3, ecode]
    exact hcol
  have ht1 : ∀ n tk wp, (s1.seen n tk wp).task = { s1.task with st := { s1.task.st with sourceIndex := n, wp := wp } } :=
    fun n tk wp => VM.seen_task ..
  have hturn1 := fun fuel => turn (cfg := cfg) (depth := depth + 2) hp1 rfl hne1 hev1 herr
    (by simp only [Idle, pc, VM.seen_ds]; rw [ht1]; exact hidle) (by rw [ht1]; exact hT.data) (by rw [ht1]; exact hT.ret)
    (by rw [ht1]; exact hT.control) (by rw [ht1]; exact hT.floats) fuel
  have eb : (pre ++ (b1 ++ tc) ++ mid) ++ t2 = pre ++ (b1 ++ (tc ++ (mid ++ t2))) := by simp
  have ecode1 : ∀ n tk wp, (s1.seen n tk wp).code (s1.ds, s1.task.c) = s1.seen n tk wp := by
    intro n tk wp
    have := (s1.seen n tk wp).code_self
    rw [VM.seen_task] at this
    exact this
  refine ⟨s1, pre ++ (b1 ++ tc) ++ mid, ⟨hT, hrefs, hwl, by rw [← hs1]; rfl, by rw [hds]; exact hN, by rw [hds, hH.here, hdfa],
    by rw [hds, hH.cap], by rw [htask], by rw [← hs1]; rfl, by rw [htask]⟩, ?_, ?_, ?_⟩
  · rw [eb, htask]; exact hin1
  · rw [eb]; exact hin3
  · intro fuel
    rw [ecode1]
    exact hturn1 fuel

theorem Spec.Item.Ordinary.mono {wl v : Wordlist} {lv : Nat} (hw : ∀ (i : Nat) (w : Word), wl.words[i]? = some w → v.words[i]? = some w)
    {it : Item} (h : it.Ordinary wl lv) : it.Ordinary v lv := by
  cases it with
  | word i => exact h.imp_right fun ⟨w, h1, h2⟩ => ⟨w, hw _ _ h1, h2⟩
  | imm p => exact h
  | _ => trivial

/-- Evaluating a token that is refused. -/
theorem spells_refused {cfg : Cfg} {depth : Nat} {base : Stack Control} {s : VM} {x y : Buf} (hT : Typing s) (hk : Kept base s x)
    {t : List Char} {it : Item} (hs : Spells cfg.fops s t it) {e : Exn}
    (hbad : ∀ (c : Ctx) (u : VM), u.refs = s.refs → u.wl = s.wl → it.run c (u.code x) = abortWith c e (u.code y))
    (hit : (∃ i, it = .word i) ∨ ∃ p, it = .imm p) (n wp : Nat) :
    ∃ wp' k, evalToken (ctx cfg (depth + 2)) ((s.seen n t wp).code x) =
      abortWith ⟨cfg, execWord cfg (k + 1)⟩ e ((s.seen n t wp').code y) := by
  have hc : ((s.seen n t wp).code x).task.st.isCompiling = true := by
    rw [VM.code_task, VM.seen_task]; exact hT.compiling
  have he : evalToken (ctx cfg (depth + 2)) ((s.seen n t wp).code x) =
      compileToken (ctx cfg (depth + 2)) ((s.seen n t wp).code x) := by
    simp only [evalToken, M.bind_apply, getSt_apply, hc, if_true]
  rw [he]
  cases hs with
  | @word j w h1 h2 h3 =>
    refine ⟨wp, depth + 1, ?_⟩
    rw [compileToken_found hT.composing hk h1 h2, h3]
    have := hbad (ctx cfg (depth + 2)) (s.seen n t wp) rfl rfl
    simp only [Item.run, M.bind_apply] at this
    rw [wordAt_ok (s := (s.seen n t wp).code x) (w := w) h2] at this
    simp only [Bool.false_eq_true, if_false]
    exact this
  | @imm j w p h1 h2 h3 h4 =>
    refine ⟨j, depth, ?_⟩
    rw [compileToken_found hT.composing hk h1 h2, h3]
    simp only [if_true, ctx]
    rw [execWord_seen h2, h4]
    exact hbad ⟨cfg, execWord cfg (depth + 1)⟩ (s.seen n t j) rfl rfl
  | lit => rcases hit with ⟨i, h⟩ | ⟨i, h⟩ <;> cases h
  | flt => rcases hit with ⟨i, h⟩ | ⟨i, h⟩ <;> cases h

/-- A definition whose control words are not nested properly is refused. -/
theorem definition_refused {cfg : Cfg} {depth lv : Nat} {s : VM} (hL : Listening s) (hC : Compiler s.refs lv s.wl)
    (hsz : s.wl.words.length < 2 ^ 64) (hfl : s.refs.flit ≠ 0) {pre text name rest : List Char} {items : List Item}
    (hin : Reading s.task pre text) (hdef : Definition cfg.fops s text name items rest) {dfa : Nat}
    (hdfa : dfa = roundUp8 (s.ds.here + 8 + (utf8 (name.map lowerChar)).length))
    (hord : ∀ it ∈ items, it.Ordinary s.wl lv) (hsh : Shallow lv items) (room : dfa + itemsRoom items ≤ s.ds.limit)
    (hcan : s.task.c.canary = .canary ∨ s.task.c.canary = .default) {wh : Word}
    (hh : s.wl.words[s.handler]? = some wh) (hn : wh.action = .core .noop) (hbad : ¬ Nested s.refs lv items) :
    ∃ n t, (∀ fuel, evaluateInput cfg (depth + 2) (fuel + n) s = .ok ((), t)) ∧
      t.lastError = some .controlStructureMismatch ∧ (∀ nm r, Newest t nm r ↔ Newest s nm r) ∧ Keeps s t ∧
      (t.ds.len ≤ t.ds.cap → Halted t) ∧ dfa ≤ t.ds.here ∧
      t.wl.words.length = s.wl.words.length + 1 := by
  obtain ⟨tc, ts, t1, t2, t3, ic, is, wc, ws, hr1, hr2, hwr, hr3, n1, n2, n3, n4, m1, m2, m3, m4⟩ := hdef.parts
  obtain ⟨s1, pre1, hO, hin1, hlt1, hev1⟩ := definition_opens (cfg := cfg) (depth := depth) hL hin hr1 hr2 n1 n2 n3 n4 hdfa (by omega)
  generalize utf8 (name.map lowerChar) = nm at *
  have hT := hO.typing
  have hwl := hO.wl
  have hrefs := hO.refs
  have hC1 : Compiler s1.refs lv s1.wl := by
    rw [hrefs]
    exact hC.mono (fun i w h => colonList_old hwl h) (by rw [hwl]; simp [colonList, Wordlist.push]; omega)
  have hN1 := hO.named
  have hold : ∀ (i : Nat) (w : Word), s.wl.words[i]? = some w → s1.wl.words[i]? = some w := fun i w h => colonList_old hwl h
  have hnew : ∀ nm r, Newest s nm r → Newest s1 nm r := fun nm r h => (hN1.newest_hidden hL.dict hwl nm r).2 h
  have hbase : baseOf s1 = baseOf s := by
    have h1 := hL.space.vars
    have : s.ds.here = s.ds.start + s.ds.len := rfl
    simp only [baseOf, DataSpace.baseAddr, hN1.start]
    rw [DataSpace.cellAt_congr fun z _ hz => hN1.below z (by omega)]
  have hw1 := hwr.mono hnew hold hbase
  have hready : Ready s1.task.c [] (s1.ds, s1.task.c) dfa := by
    refine ⟨⟨hT.space.small, hT.space.inside⟩, hO.here, ?_, by simp, ?_⟩
    · have := holding_self s1.task.c
      rw [hO.control, hL.balanced] at this
      rw [hO.control, this]
      exact .refl _
    · exact hT.control.under
  have hlim1 : s1.ds.limit = s.ds.limit := by simp only [DataSpace.limit, hN1.start, hO.cap]
  have hk1 : Kept s1.task.c s1 (s1.ds, s1.task.c) := ⟨⟨rfl, rfl, fun _ _ => rfl⟩, Nat.le_refl _, [], dfa, hready⟩
  have hord1 : ∀ it ∈ items, it.Ordinary s1.wl lv := fun it h => (hord it h).mono hold
  have hst : s1.ds.start ≤ dfa := hready.start_le
  have hw0 : s1.wl.words[s1.handler]? = some wh := by rw [hO.handler]; exact hold _ _ hh
  cases hop : openItems lv items [] with
  | none =>
    obtain ⟨l, it, m, ks, rfl, ho, hob⟩ := openItems_none items hop
    obtain ⟨mid, hwa, hwb⟩ := hw1.split
    have hroom : itemsRoom (l ++ it :: m) = itemsRoom l + (it.room + itemsRoom m) := by simp [itemsRoom]
    obtain ⟨x, K, e, g1, g2, g3, g4, g5, g6⟩ := steps_ok (oc := cfg.overflowChecks) (base := s1.task.c) (a0 := dfa) hC1 l
      (fun j hj => hord1 j (by simp [hj])) hready (ks := []) trivial hst (Nat.le_refl _) ho
      (fun l' M hp hM => hsh l' M (hp.trans ⟨_, rfl⟩) hM) (by show _ ≤ s1.ds.limit; omega)
    obtain ⟨pre2, tk2, wp2, e2, hk2, hev2⟩ := source_compile (depth := depth) hT (by rw [hrefs]; exact hfl) hwa
      (tk := name.map lowerChar) (wp := ic) (by rw [hO.here]; exact g1) hk1 hin1 hlt1
    have hx1 := g4.start
    have hx2 := g4.limit
    obtain ⟨y, y1, y2, y3⟩ := step_bad hC1 (by rw [hO.control]; exact hcan) (hord1 it (by simp)) g2 g3
      (by rw [hx1]; exact hst) (by omega) hob (by rw [hx2]; show _ ≤ s1.ds.limit; omega)
    cases hwb with
    | string => cases hob
    | @token bs tok tl _ _ _ hb hne hnb he hs' _ =>
      have hp := seen_parseWord (x := x) (tk := tk2) (wp := wp2) (by rw [← e2]; exact hin1) (by rw [← e2]; exact hlt1) hb hne hnb he
      have hit : (∃ i, it = .word i) ∨ ∃ p, it = .imm p := by
        cases it with
        | word j => exact .inl ⟨j, rfl⟩
        | imm p => exact .inr ⟨p, rfl⟩
        | _ => cases hob
      obtain ⟨wp', k, hev3⟩ := spells_refused (depth := depth) hT hk2 hs' y3 hit (byteLen (pre2 ++ (bs ++ tok))) wp2
      obtain ⟨t, a1, a2, a3, a4, -, a6⟩ := abort_silent (cfg := cfg) (k := k) (e := .controlStructureMismatch)
        (u := (s1.seen (byteLen (pre2 ++ (bs ++ tok))) tok wp').code y) (w := wh) hw0 hn
      refine ⟨l.length + 2, t, fun fuel => ?_, a2, hO.stopped hL a3 a4 a6 (g4.trans y1 fun _ h => ⟨h, h⟩) (by omega)⟩
      have h1 := hev1 (fuel + l.length)
      have h2 := hev2 fuel
      have h3 := stop (depth := depth + 2) hp rfl hne (hev3.trans a1) a2 fuel
      rw [show fuel + (l.length + 2) = fuel + l.length + 2 by omega, h1,
        show fuel + l.length + 1 = fuel + 1 + l.length by omega, h2, h3]
  | some ks =>
    obtain ⟨y, K, e, g1, g2, g3, g4, g5, g6⟩ := steps_ok (oc := cfg.overflowChecks) (base := s1.task.c) (a0 := dfa) hC1 items
      hord1 hready (ks := []) trivial hst (Nat.le_refl _) hop hsh (by show _ ≤ s1.ds.limit; omega)
    obtain ⟨pre2, tk2, wp2, e2, hk2, hev2⟩ := source_compile (depth := depth) hT (by rw [hrefs]; exact hfl) hw1
      (tk := name.map lowerChar) (wp := ic) (by rw [hO.here]; exact g1) hk1 hin1 hlt1
    have hks : ks ≠ [] := by
      rintro rfl
      exact hbad (nested_of_open hord hop)
    obtain ⟨b3, rfl, hb3, hne3, hnb3, he3⟩ := hr3
    have hp := seen_parseWord (x := y) (tk := tk2) (wp := wp2) (by rw [← e2]; exact hin1) (by rw [← e2]; exact hlt1) hb3 hne3 hnb3 he3
    obtain ⟨t, a1, a2, a3, a4, a5, a6⟩ := abort_silent (cfg := cfg) (k := depth) (e := .controlStructureMismatch)
        (u := (s1.seen (byteLen (pre2 ++ (b3 ++ ts))) ts is).code y) (w := wh) hw0 hn
    have hev3 : evalToken (ctx cfg (depth + 2)) ((s1.seen (byteLen (pre2 ++ (b3 ++ ts))) ts wp2).code y) =
        .ok ((), t.setTask { t.task with st := { t.task.st with isCompiling := false } }) := by
      have hc : ((s1.seen (byteLen (pre2 ++ (b3 ++ ts))) ts wp2).code y).task.st.isCompiling = true := by
        rw [VM.code_task, VM.seen_task]; exact hT.compiling
      simp only [evalToken, M.bind_apply, getSt_apply, hc, if_true]
      rw [compileToken_found hT.composing hk2 (hnew _ _ m1) (hold _ _ m2), m4]
      simp only [if_true, ctx]
      rw [execWord_seen (hold _ _ m2), m3]
      show semicolon _ _ = _
      have hcl : ((s1.seen (byteLen (pre2 ++ (b3 ++ ts))) ts is).code y).task.c.len ≠ 0 := by
        rw [VM.code_task]
        have h1 := g2.ctl.rep.1
        have h2 := g3.length
        intro h
        rw [show y.2.len = 0 from h] at h1
        exact hks (List.length_eq_zero_iff.1 (by simp at h1; omega))
      unfold semicolon semicolonBody
      simp only [M.bind_apply, getVM_apply]
      rw [if_pos hcl, a1]
      simp only [leftBracket, modSt_apply]
    have a7 : Silenced ((s1.seen (byteLen (pre2 ++ (b3 ++ ts))) ts is).code y)
        (t.setTask { t.task with st := { t.task.st with isCompiling := false } }) :=
      ⟨a6.tkn, a6.forward, a6.refs, a6.handler, by rw [VM.task_setTask]; exact a6.data, by rw [VM.task_setTask]; exact a6.floats,
        by rw [VM.task_setTask]; exact a6.control, by rw [VM.task_setTask]; exact a6.ret, by rw [VM.task_setTask]; exact a6.ip, by rw [VM.task_setTask]; exact a6.inbuf⟩
    refine ⟨items.length + 2, t.setTask { t.task with st := { t.task.st with isCompiling := false } }, fun fuel => ?_, a2, hO.stopped hL (y := y) a3 a4 a7 g4 (by rw [g2.here]; exact g5)⟩
    have h1 := hev1 (fuel + items.length)
    have h2 := hev2 fuel
    have h3 := stop (depth := depth + 2) hp rfl hne3 hev3 a2 fuel
    rw [show fuel + (items.length + 2) = fuel + items.length + 2 by omega, h1,
      show fuel + items.length + 1 = fuel + 1 + items.length by omega, h2]
    exact h3

/-- Evaluating a token that is neither a word nor a number. -/
theorem unknown_refused {cfg : Cfg} {depth : Nat} {base : Stack Control} {s : VM} {x : Buf} (hT : Typing s) (hk : Kept base s x)
    {t : List Char} (h1 : Newest s (utf8 t) none) (h2 : ∀ v, ¬ IntegerToken (baseOf s) (utf8 t) v)
    (h3 : ∀ v, ¬ FloatToken cfg.fops (utf8 t) v) (n wp : Nat) :
    ∃ e, evalToken (ctx cfg depth) ((s.seen n t wp).code x) =
      abortWith (ctx cfg depth) .undefinedWord (((s.seen n t wp).code x).setErr (some e)) := by
  have hc : ((s.seen n t wp).code x).task.st.isCompiling = true := by
    rw [VM.code_task, VM.seen_task]; exact hT.compiling
  have hv : integerValue (s.ds.cellAt s.ds.baseAddr) (utf8 t) = none := by
    cases hh : integerValue (s.ds.cellAt s.ds.baseAddr) (utf8 t) with
    | none => rfl
    | some z => exact absurd ((integerValue_iff _ _ _).1 hh) (h2 z)
  cases hv2 : floatValue cfg.fops (utf8 t) with
  | ok v => exact absurd ((floatValue_iff _ _ _).1 hv2) (h3 v)
  | error e =>
    refine ⟨e, ?_⟩
    have hf := hk.find hT.dict (ctx cfg depth) h1 (u := ((s.seen n t wp).code x).setTkn none) rfl rfl
    have hb := hk.baseCell hT.composing
    simp only [evalToken, M.bind_apply, getSt_apply, hc, if_true]
    unfold compileToken
    rw [M.bind_ok (takeToken_run (t := t) rfl), M.bind_ok hf]
    simp only [evaluateNumber, evaluateInteger, evaluateFloat, M.bind_apply, setError_apply]
    rw [dsRd_ok (by exact hb)]
    simp only [hv, M.bind_apply, setError_apply, getError_apply, ctx, hv2, putToken_run]
    rfl

/-- A definition is given up at a token that is neither a word nor a number. -/
theorem definition_unknown {cfg : Cfg} {depth lv : Nat} {s : VM} (hL : Listening s) (hC : Compiler s.refs lv s.wl)
    (hsz : s.wl.words.length < 2 ^ 64) (hfl : s.refs.flit ≠ 0) {pre text tc t1 name t2 t3 tok rest : List Char}
    {items : List Item} {ic : Nat} {wc : Word} {ks : List Mark}
    (hin : Reading s.task pre text) (hr1 : Reads text tc t1) (hr2 : Reads t1 name t2)
    (n1 : Newest s (utf8 tc) (some ic)) (n2 : s.wl.words[ic]? = some wc) (n3 : wc.action = .core .colon)
    (n4 : wc.isCompileOnly = false) (hwr : Written cfg.fops s t2 items t3) (hr3 : Reads t3 tok rest)
    (u1 : Newest s (utf8 tok) none) (u2 : ∀ v, ¬ IntegerToken (baseOf s) (utf8 tok) v)
    (u3 : ∀ v, ¬ FloatToken cfg.fops (utf8 tok) v) {dfa : Nat}
    (hdfa : dfa = roundUp8 (s.ds.here + 8 + (utf8 (name.map lowerChar)).length))
    (hord : ∀ it ∈ items, it.Ordinary s.wl lv) (hsh : Shallow lv items) (hop : openItems lv items [] = some ks)
    (room : dfa + itemsRoom items ≤ s.ds.limit) {wh : Word}
    (hh : s.wl.words[s.handler]? = some wh) (hn : wh.action = .core .noop) :
    ∃ n t, (∀ fuel, evaluateInput cfg (depth + 2) (fuel + n) s = .ok ((), t)) ∧
      t.lastError = some .undefinedWord ∧ (∀ nm r, Newest t nm r ↔ Newest s nm r) ∧ Keeps s t ∧
      (t.ds.len ≤ t.ds.cap → Halted t) ∧ dfa ≤ t.ds.here ∧
      t.wl.words.length = s.wl.words.length + 1 := by
  obtain ⟨s1, pre1, hO, hin1, hlt1, hev1⟩ := definition_opens (cfg := cfg) (depth := depth) hL hin hr1 hr2 n1 n2 n3 n4 hdfa (by omega)
  generalize utf8 (name.map lowerChar) = nm at *
  have hT := hO.typing
  have hwl := hO.wl
  have hrefs := hO.refs
  have hC1 : Compiler s1.refs lv s1.wl := by
    rw [hrefs]
    exact hC.mono (fun i w h => colonList_old hwl h) (by rw [hwl]; simp [colonList, Wordlist.push]; omega)
  have hN1 := hO.named
  have hold : ∀ (i : Nat) (w : Word), s.wl.words[i]? = some w → s1.wl.words[i]? = some w := fun i w h => colonList_old hwl h
  have hnew : ∀ nm r, Newest s nm r → Newest s1 nm r := fun nm r h => (hN1.newest_hidden hL.dict hwl nm r).2 h
  have hbase : baseOf s1 = baseOf s := by
    have h1 := hL.space.vars
    have : s.ds.here = s.ds.start + s.ds.len := rfl
    simp only [baseOf, DataSpace.baseAddr, hN1.start]
    rw [DataSpace.cellAt_congr fun z _ hz => hN1.below z (by omega)]
  have hw1 := hwr.mono hnew hold hbase
  have hready : Ready s1.task.c [] (s1.ds, s1.task.c) dfa := by
    refine ⟨⟨hT.space.small, hT.space.inside⟩, hO.here, ?_, by simp, ?_⟩
    · have := holding_self s1.task.c
      rw [hO.control, hL.balanced] at this
      rw [hO.control, this]
      exact .refl _
    · exact hT.control.under
  have hlim1 : s1.ds.limit = s.ds.limit := by simp only [DataSpace.limit, hN1.start, hO.cap]
  have hk1 : Kept s1.task.c s1 (s1.ds, s1.task.c) := ⟨⟨rfl, rfl, fun _ _ => rfl⟩, Nat.le_refl _, [], dfa, hready⟩
  have hord1 : ∀ it ∈ items, it.Ordinary s1.wl lv := fun it h => (hord it h).mono hold
  have hst : s1.ds.start ≤ dfa := hready.start_le
  have hw0 : s1.wl.words[s1.handler]? = some wh := by rw [hO.handler]; exact hold _ _ hh
  obtain ⟨y, K, e, g1, g2, g3, g4, g5, g6⟩ := steps_ok (oc := cfg.overflowChecks) (base := s1.task.c) (a0 := dfa) hC1 items
    hord1 hready (ks := []) trivial hst (Nat.le_refl _) hop hsh (by show _ ≤ s1.ds.limit; omega)
  obtain ⟨pre2, tk2, wp2, e2, hk2, hev2⟩ := source_compile (depth := depth) hT (by rw [hrefs]; exact hfl) hw1
    (tk := name.map lowerChar) (wp := ic) (by rw [hO.here]; exact g1) hk1 hin1 hlt1
  obtain ⟨b3, rfl, hb3, hne3, hnb3, he3⟩ := hr3
  have hp := seen_parseWord (x := y) (tk := tk2) (wp := wp2) (by rw [← e2]; exact hin1) (by rw [← e2]; exact hlt1) hb3 hne3 hnb3 he3
  obtain ⟨er, hev3⟩ := unknown_refused (cfg := cfg) (depth := depth + 2) hT hk2 (hnew _ _ u1) (by rw [hbase]; exact u2) u3
    (byteLen (pre2 ++ (b3 ++ tok))) wp2
  obtain ⟨t, a1, a2, a3, a4, a5, a6⟩ := abort_silent (cfg := cfg) (k := depth + 1) (e := .undefinedWord)
      (u := ((s1.seen (byteLen (pre2 ++ (b3 ++ tok))) tok wp2).code y).setErr (some er)) (w := wh) hw0 hn
  have a7 : Silenced ((s1.seen (byteLen (pre2 ++ (b3 ++ tok))) tok wp2).code y) t :=
    ⟨a6.tkn, a6.forward, a6.refs, a6.handler, a6.data, a6.floats, a6.control, a6.ret, a6.ip, a6.inbuf⟩
  refine ⟨items.length + 2, t, fun fuel => ?_, a2, hO.stopped hL (y := y) a3 a4 a7 g4 (by rw [g2.here]; exact g5)⟩
  have h1 := hev1 (fuel + items.length)
  have h2 := hev2 fuel
  have h3 := stop (depth := depth + 2) hp rfl hne3 (hev3.trans a1) a2 fuel
  rw [show fuel + (items.length + 2) = fuel + items.length + 2 by omega, h1,
    show fuel + items.length + 1 = fuel + 1 + items.length by omega, h2]
  exact h3

end Verif
