import Verif.Spec.Change
import Verif.Lemmas.Text
import Verif.Lemmas.MemoryWords
import Verif.Lemmas.Setters

/-!
# Effects of the building blocks
-/

namespace Verif
open Spec

theorem Spec.definedDoes : Prim.core .doesAction ∈ definedActions := by decide

theorem Spec.Changes.trans {K : List Kind} {s t u : VM} (h : Changes K s t) (k : Changes K t u) :
    Changes K s u := by
  induction k with
  | refl => exact h
  | tail _ hk hc ih => exact .tail ih hk hc

theorem Spec.Changes.one {K : List Kind} {k : Kind} {s t : VM} (hk : k ∈ K) (h : Change k s t) :
    Changes K s t := .tail (.refl s) hk h

theorem Spec.Changes.mono {K L : List Kind} (hs : ∀ k, k ∈ K → k ∈ L) {s t : VM} (h : Changes K s t) :
    Changes L s t := by
  induction h with
  | refl => exact .refl _
  | tail _ hk hc ih => exact .tail ih (hs _ hk) hc

/-- No change moves the data space or puts `here` outside it. -/
theorem Spec.Change.ds {k : Kind} {s t : VM} (h : Change k s t) :
    t.ds.start = s.ds.start ∧ t.ds.cap = s.ds.cap ∧ (s.ds.len ≤ s.ds.cap → t.ds.len ≤ t.ds.cap) := by
  cases k <;> simp only [Change] at h
  case memWrite => obtain ⟨a, n, b, -, -, -, rfl⟩ := h; exact ⟨rfl, rfl, id⟩
  case memAppend => obtain ⟨n, b, -, hn, -, rfl⟩ := h; exact ⟨rfl, rfl, fun _ => hn⟩
  case memHere => obtain ⟨n, hn, rfl⟩ := h; exact ⟨rfl, rfl, fun _ => hn⟩
  case sourceOpen =>
    obtain ⟨src, ⟨p, -, rfl⟩ | rfl⟩ := h <;> exact ⟨rfl, rfl, id⟩
  all_goals
    first
    | (obtain ⟨_, rfl⟩ := h; exact ⟨rfl, rfl, id⟩)
    | (obtain ⟨_, _, rfl⟩ := h; exact ⟨rfl, rfl, id⟩)
    | (obtain ⟨_, _, _, rfl⟩ := h; exact ⟨rfl, rfl, id⟩)
    | (obtain ⟨_, _, _, _, rfl⟩ := h; exact ⟨rfl, rfl, id⟩)
    | (obtain ⟨_, _, _, _, _, rfl⟩ := h; exact ⟨rfl, rfl, id⟩)
    | (subst h; exact ⟨rfl, rfl, id⟩)

theorem Spec.Changes.ds {K : List Kind} {s t : VM} (h : Changes K s t) :
    t.ds.start = s.ds.start ∧ t.ds.cap = s.ds.cap ∧ (s.ds.len ≤ s.ds.cap → t.ds.len ≤ t.ds.cap) := by
  induction h with
  | refl => exact ⟨rfl, rfl, id⟩
  | tail _ _ hc ih =>
    obtain ⟨h1, h2, h3⟩ := Change.ds hc
    exact ⟨h1.trans ih.1, h2.trans ih.2.1, fun h => h3 (ih.2.2 h)⟩

theorem Spec.Changes.inSpace {K : List Kind} {s t : VM} (h : Changes K s t) (hs : InSpace s) :
    InSpace t := by
  obtain ⟨h1, h2, h3⟩ := h.ds
  exact ⟨by rw [h1, h2]; exact hs.1, h3 hs.2⟩

/-- The new words stay within what the machine can do. -/
theorem Spec.Change.able {K : List Kind} {k : Kind} {s t : VM} (hk : k ∈ K) (h : Change k s t)
    (hs : Able K s) : Able K t := by
  obtain ⟨hc, hs⟩ := hs
  refine ⟨hc, ?_⟩
  cases k <;> simp only [Change] at h
  case wordAdd =>
    obtain ⟨n, w, hw, rfl⟩ := h
    intro x hx
    rcases List.mem_append.1 hx with hx | hx
    · exact hs x hx
    · rw [List.mem_singleton.1 hx]
      exact hc (.inl hk) _ hw.1
  case wordLast =>
    obtain ⟨w, w', h0, he, rfl⟩ := h
    intro x hx
    rcases List.mem_or_eq_of_mem_set hx with hx | rfl
    · exact hs x hx
    · rcases he.action with e | e
      · rw [e]; exact hs w (List.mem_of_getElem? h0)
      · exact hc (.inr hk) _ e
  case wordTime =>
    obtain ⟨f, hf, p, rfl⟩ := h
    intro x hx
    obtain ⟨i, hi, rfl⟩ := List.mem_mapIdx.1 hx
    split
    · obtain ⟨a, b, e⟩ := hf s.wl.words[i]
      rw [e]
      exact hs s.wl.words[i] (List.getElem_mem hi)
    · exact hs _ (List.getElem_mem hi)
  case wordForget =>
    obtain ⟨n, b, l, rfl⟩ := h
    exact fun x hx => hs x (List.mem_of_mem_take hx)
  case sourceOpen => obtain ⟨src, ⟨p, -, rfl⟩ | rfl⟩ := h <;> exact hs
  all_goals
    first
    | (obtain ⟨_, rfl⟩ := h; exact hs)
    | (obtain ⟨_, _, rfl⟩ := h; exact hs)
    | (obtain ⟨_, _, _, rfl⟩ := h; exact hs)
    | (obtain ⟨_, _, _, _, rfl⟩ := h; exact hs)
    | (obtain ⟨_, _, _, _, _, rfl⟩ := h; exact hs)
    | (obtain ⟨_, _, _, _, _, _, rfl⟩ := h; exact hs)
    | (subst h; exact hs)

theorem Spec.Changes.fit {K : List Kind} {A : Inv K} {s t : VM} (h : Changes K s t) (hs : Fit A s) :
    Fit A t := by
  refine ⟨h.inSpace hs.1, ?_⟩
  induction h with
  | refl => exact hs.2
  | tail _ hk hc ih => exact A.keep _ _ _ hk hc ih

/-- No condition. -/
def Spec.Inv.any (K : List Kind) : Inv K := ⟨fun _ => True, fun _ _ _ _ _ _ => trivial⟩

/-- All words are confined to `K`. -/
def Spec.Inv.able (K : List Kind) : Inv K := ⟨Able K, fun _ _ _ hk hc hs => hc.able hk hs⟩

namespace Spec.Does

variable {α β : Type} {K : List Kind} {A : Inv K}

theorem pure (a : α) : Does A (Pure.pure a : M α) := by
  intro s b s' _ h
  cases h
  exact .refl _

theorem bind {m : M α} {k : α → M β} (hm : Does A m) (hk : ∀ a, Does A (k a)) :
    Does A (m >>= k) := by
  intro s b s' hi h
  rw [M.bind_apply] at h
  split at h
  · rename_i a s1 h1
    have := hm s a s1 hi h1
    exact this.trans (hk a s1 b s' (this.fit hi) h)
  · cases h

theorem fault (e : Fault) : Does A (Verif.fault e : M α) := by
  intro s a s' _ h; cases h

theorem liftE (x : Except Fault α) : Does A (Verif.liftE x) := by
  intro s a s' _ h
  cases x <;> cases h
  exact .refl _

/-- A computation that leaves the state alone. -/
theorem reader {m : M α} (h : ∀ s a s', m s = .ok (a, s') → s' = s) : Does A m := by
  intro s a s' _ e
  rw [h s a s' e]; exact .refl _

theorem getVM : Does A Verif.getVM := reader fun _ _ _ h => by cases h; rfl
theorem getTask : Does A Verif.getTask := reader fun _ _ _ h => by cases h; rfl
theorem getSt : Does A Verif.getSt := reader fun _ _ _ h => by cases h; rfl
theorem getDs : Does A Verif.getDs := reader fun _ _ _ h => by cases h; rfl
theorem getWl : Does A Verif.getWl := reader fun _ _ _ h => by cases h; rfl
theorem getRefs : Does A Verif.getRefs := reader fun _ _ _ h => by cases h; rfl
theorem getError : Does A Verif.getError := reader fun _ _ _ h => by cases h; rfl
theorem getHere : Does A Verif.getHere := reader fun _ _ _ h => by cases h; rfl
theorem leavePart : Does A Verif.leavePart := reader fun _ _ _ h => by cases h; rfl
theorem dsRd (f : DataSpace → Except Fault α) : Does A (Verif.dsRd f) := reader fun s a s' h => by
  rw [dsRd_apply] at h
  split at h <;> cases h
  rfl
theorem wordAt (i : Nat) : Does A (Verif.wordAt i) := reader fun s a s' h => by
  rw [wordAt_apply] at h
  split at h <;> cases h
  rfl
theorem labelAt (i : Nat) : Does A (Verif.labelAt i) := reader fun s a s' h => by
  rw [Verif.labelAt] at h
  split at h <;> cases h
  rfl
theorem find (c : Ctx) (name : List Byte) : Does A (Verif.find c name) := reader fun s a s' h => by
  simp only [Verif.find] at h
  split at h <;> cases h
  rfl
theorem sourceFrom (b : List Char) (i : Nat) : Does A (Verif.sourceFrom b i) := by
  unfold Verif.sourceFrom
  split
  · exact pure _
  · exact fault _
theorem sliceM (b : List Char) (i j : Nat) : Does A (Verif.sliceM b i j) := by
  unfold Verif.sliceM
  split
  · exact pure _
  · exact fault _

/-- A computation that always succeeds with one change. -/
theorem change {k : Kind} (hk : k ∈ K) {m : M α}
    (h : ∀ s a s', m s = .ok (a, s') → Change k s s') : Does A m :=
  fun s a s' _ e => .one hk (h s a s' e)

theorem sPush (h : .dataStack ∈ K) (v : Cell) : Does A (Verif.sPush v) :=
  change h fun s _ _ e => by cases e; exact ⟨_, rfl⟩
theorem sPush2 (h : .dataStack ∈ K) (a b : Cell) : Does A (Verif.sPush2 a b) :=
  change h fun s _ _ e => by cases e; exact ⟨_, rfl⟩
theorem sPush3 (h : .dataStack ∈ K) (a b c : Cell) : Does A (Verif.sPush3 a b c) :=
  change h fun s _ _ e => by cases e; exact ⟨_, rfl⟩
theorem sPop (h : .dataStack ∈ K) : Does A Verif.sPop :=
  change h fun s _ _ e => by cases e; exact ⟨_, rfl⟩
theorem sPop2 (h : .dataStack ∈ K) : Does A Verif.sPop2 :=
  change h fun s _ _ e => by cases e; exact ⟨_, rfl⟩
theorem sPop3 (h : .dataStack ∈ K) : Does A Verif.sPop3 :=
  change h fun s _ _ e => by cases e; exact ⟨_, rfl⟩
theorem modS (h : .dataStack ∈ K) (f : Stack Cell → Stack Cell) : Does A (Verif.modS f) :=
  change h fun s _ _ e => by cases e; exact ⟨_, rfl⟩
theorem rPush (h : .returnStack ∈ K) (v : Cell) : Does A (Verif.rPush v) :=
  change h fun s _ _ e => by cases e; exact ⟨_, rfl⟩
theorem rPush2 (h : .returnStack ∈ K) (a b : Cell) : Does A (Verif.rPush2 a b) :=
  change h fun s _ _ e => by cases e; exact ⟨_, rfl⟩
theorem rPush3 (h : .returnStack ∈ K) (a b c : Cell) : Does A (Verif.rPush3 a b c) :=
  change h fun s _ _ e => by cases e; exact ⟨_, rfl⟩
theorem rPop (h : .returnStack ∈ K) : Does A Verif.rPop :=
  change h fun s _ _ e => by cases e; exact ⟨_, rfl⟩
theorem rPop2 (h : .returnStack ∈ K) : Does A Verif.rPop2 :=
  change h fun s _ _ e => by cases e; exact ⟨_, rfl⟩
theorem rPop3 (h : .returnStack ∈ K) : Does A Verif.rPop3 :=
  change h fun s _ _ e => by cases e; exact ⟨_, rfl⟩
theorem cPush (h : .controlStack ∈ K) (v : Control) : Does A (Verif.cPush v) :=
  change h fun s _ _ e => by cases e; exact ⟨_, rfl⟩
theorem cPop (h : .controlStack ∈ K) : Does A Verif.cPop :=
  change h fun s _ _ e => by cases e; exact ⟨_, rfl⟩
theorem fPush (h : .floatStack ∈ K) (v : F64) : Does A (Verif.fPush v) :=
  change h fun s _ _ e => by cases e; exact ⟨_, rfl⟩
theorem fPush2 (h : .floatStack ∈ K) (a b : F64) : Does A (Verif.fPush2 a b) :=
  change h fun s _ _ e => by cases e; exact ⟨_, rfl⟩
theorem fPush3 (h : .floatStack ∈ K) (a b c : F64) : Does A (Verif.fPush3 a b c) :=
  change h fun s _ _ e => by cases e; exact ⟨_, rfl⟩
theorem fPop (h : .floatStack ∈ K) : Does A Verif.fPop :=
  change h fun s _ _ e => by cases e; exact ⟨_, rfl⟩
theorem fPop2 (h : .floatStack ∈ K) : Does A Verif.fPop2 :=
  change h fun s _ _ e => by cases e; exact ⟨_, rfl⟩
theorem fPop3 (h : .floatStack ∈ K) : Does A Verif.fPop3 :=
  change h fun s _ _ e => by cases e; exact ⟨_, rfl⟩
theorem modF (h : .floatStack ∈ K) (f : Stack F64 → Stack F64) : Does A (Verif.modF f) :=
  change h fun s _ _ e => by cases e; exact ⟨_, rfl⟩

theorem modData (h : .dataStack ∈ K) (f : Task → Stack Cell) :
    Does A (modTask fun t => { t with s := f t }) :=
  change h fun s _ _ e => by cases e; exact ⟨_, rfl⟩

theorem modReturn (h : .returnStack ∈ K) (f : Task → Stack Cell) :
    Does A (modTask fun t => { t with r := f t }) :=
  change h fun s _ _ e => by cases e; exact ⟨_, rfl⟩

theorem modDataReturn (h1 : .dataStack ∈ K) (h2 : .returnStack ∈ K) (f g : Task → Stack Cell) :
    Does A (modTask fun t => { t with s := f t, r := g t }) := by
  intro s a s' _ e
  cases e
  refine .tail (.one h1 ⟨f s.task, rfl⟩) h2 ⟨g s.task, ?_⟩
  simp

theorem clearStacks (h1 : .dataStack ∈ K) (h2 : .floatStack ∈ K) (h3 : .controlStack ∈ K) :
    Does A Verif.clearStacks := by
  intro s a s' _ e
  cases e
  refine .tail (.tail (.one h1 ⟨s.task.s.reset, rfl⟩) h2 ⟨s.task.f.reset, rfl⟩) h3
    ⟨s.task.c.reset, ?_⟩
  simp

theorem modIp (h : .ip ∈ K) (f : St → Nat) : Does A (modSt fun st => { st with ip := f st }) :=
  change h fun s _ _ e => by cases e; exact ⟨_, rfl⟩
theorem setIp (h : .ip ∈ K) (p : Nat) : Does A (Verif.setIp p) := modIp h _
theorem modWp (h : .wp ∈ K) (f : St → Nat) : Does A (modSt fun st => { st with wp := f st }) :=
  change h fun s _ _ e => by cases e; exact ⟨_, rfl⟩
theorem modAbortedWp (h : .abortedWp ∈ K) (f : St → Nat) :
    Does A (modSt fun st => { st with abortedWp := f st }) :=
  change h fun s _ _ e => by cases e; exact ⟨_, rfl⟩
theorem modMode (h : .mode ∈ K) (f : St → Bool) :
    Does A (modSt fun st => { st with isCompiling := f st }) :=
  change h fun s _ _ e => by cases e; exact ⟨_, rfl⟩
theorem modIndex (h : .sourceIndex ∈ K) (f : St → Nat) :
    Does A (modSt fun st => { st with sourceIndex := f st }) :=
  change h fun s _ _ e => by cases e; exact ⟨_, rfl⟩
theorem clearError (h : .clear ∈ K) : Does A (Verif.setError none) :=
  change h fun s _ _ e => by cases e; rfl
theorem putToken (h : .token ∈ K) (t : List Char) : Does A (Verif.putToken t) :=
  change h fun s _ _ e => by cases e; exact ⟨_, rfl⟩
theorem outBytes (h : .output ∈ K) (bs : List Byte) : Does A (Verif.outBytes bs) :=
  change h fun s _ _ e => by cases e; exact ⟨_, rfl⟩
theorem modHold (h : .holdBuffer ∈ K) (f : VM → List Byte) :
    Does A (modVM fun s => { s with hldbuf := f s }) :=
  change h fun s _ _ e => by cases e; exact ⟨_, rfl⟩
theorem modHandler (h : .handler ∈ K) (f : VM → Nat) :
    Does A (modVM fun s => { s with handler := f s }) :=
  change h fun s _ _ e => by cases e; exact ⟨_, rfl⟩
theorem modLabels (h : .labelSets ∈ K) (f g : VM → List Nat) :
    Does A (modVM fun s => { s with forward := f s, resolved := g s }) :=
  change h fun s _ _ e => by cases e; exact ⟨_, _, rfl⟩
theorem modRefs (h : .refs ∈ K) (f : VM → Refs) :
    Does A (modVM fun s => { s with refs := f s }) :=
  change h fun s _ _ e => by cases e; exact ⟨_, rfl⟩
theorem modHost (h : .host ∈ K) (f : Host → Host) : Does A (Verif.modHost f) :=
  change h fun s _ _ e => by cases e; exact ⟨_, rfl⟩
theorem hostCall (h : .hostCall ∈ K) (c : Ctx) : Does A (Verif.hostCall c) :=
  change h fun s _ _ e => by cases e; exact ⟨_, rfl⟩
theorem setLabel (h : .labelTable ∈ K) (n v : Nat) : Does A (Verif.setLabel n v) :=
  change h fun s _ _ e => by
    simp only [Verif.setLabel] at e
    split at e <;> cases e
    exact ⟨_, by simp, rfl⟩
theorem appendFile (h : .fileOpen ∈ K) (x : Handle) :
    Does A (modTask fun t => { t with files := t.files ++ [some x] }) :=
  change h fun s _ _ e => by cases e; exact ⟨x, _, .inr rfl, rfl⟩
theorem wlPush (h : .wordAdd ∈ K) (n : List Byte) (w : Word) (hw : w.action ∈ definedActions)
    (hc : w.compSem = .word) : Does A (Verif.wlPush n w) :=
  change h fun s _ _ e => by cases e; exact ⟨_, _, ⟨hw, hc⟩, rfl⟩
theorem saveBuckets (h : .savedBuckets ∈ K) :
    Does A (modVM fun s => { s with wl := { s.wl with tempBuckets := s.wl.buckets } }) :=
  change h fun s _ _ e => by cases e; exact rfl
theorem setAwake (h : .awake ∈ K) (i : Fin 5) (v : Bool) : Does A (Verif.setAwake i v) :=
  change h fun s _ _ e => by cases e; exact ⟨_, _, rfl⟩

end Spec.Does

/-! ## The data space -/

/-- Memory changed only by appending at `here`. -/
def Appends (d d' : DataSpace) : Prop :=
  ∃ n b, d.len ≤ n ∧ n ≤ d.cap ∧
    (∀ x, x < d.start + d.len ∨ d.start + n ≤ x → b x = d.bytes x) ∧
    d' = { d with bytes := b, len := n }

theorem Appends.refl {d : DataSpace} (h : d.len ≤ d.cap) : Appends d d :=
  ⟨d.len, d.bytes, Nat.le_refl _, h, fun _ _ => rfl, rfl⟩

theorem Appends.trans {d e f : DataSpace} (h : Appends d e) (k : Appends e f) : Appends d f := by
  obtain ⟨n, b, h1, h2, h3, rfl⟩ := h
  obtain ⟨m, b', k1, k2, k3, rfl⟩ := k
  refine ⟨m, b', Nat.le_trans h1 k1, k2, fun x hx => ?_, rfl⟩
  simp only at k1 k2 k3
  rw [k3 x (by omega), h3 x (by omega)]

theorem allot_setHere {oc : Bool} {d d' : DataSpace} {v : Cell} (h : d.allot oc v = .ok d') :
    ∃ p, d' = d.setHere p := by
  unfold DataSpace.allot at h
  cases hx : iadd oc (toCell d.here) v with
  | error e => rw [hx] at h; cases h
  | ok p => rw [hx] at h; cases h; exact ⟨_, rfl⟩

theorem allot_small {oc : Bool} {d d' : DataSpace} {k : Nat} (hd : d.start + d.cap < 2 ^ 63)
    (hk : d.len + k ≤ d.cap) (h : d.allot oc (BitVec.ofNat 64 k) = .ok d') :
    d' = { d with len := d.len + k } := by
  unfold DataSpace.allot at h
  have e1 : (toCell d.here).toInt = d.here := toInt_ofNat_small (by simp [DataSpace.here]; omega)
  have e2 : (BitVec.ofNat 64 k : Cell).toInt = k := toInt_ofNat_small (by omega)
  have e3 : (toCell d.here + BitVec.ofNat 64 k).toNat = d.here + k := by
    simp only [toCell, BitVec.toNat_add, BitVec.toNat_ofNat, DataSpace.here]
    omega
  have hx : iadd oc (toCell d.here) (BitVec.ofNat 64 k) = .ok (toCell d.here + BitVec.ofNat 64 k) := by
    unfold iadd
    rw [e1, e2]
    have : inIsize ((d.here : Int) + k) := by
      simp [inIsize, DataSpace.here]; omega
    simp [this]
  rw [hx] at h
  simp only [Except.ok_bind', e3] at h
  cases h
  unfold DataSpace.setHere
  rw [if_pos (by simp only [DataSpace.here, DataSpace.limit]; omega)]
  congr 1
  simp only [DataSpace.here]; omega

theorem putCell_ok {d d' : DataSpace} {v : Cell} {a : Nat} (h : d.putCell v a = .ok d') :
    d.valid a 8 ∧ d' = d.setCell a v := by
  unfold DataSpace.putCell at h
  split at h <;> cases h
  exact ⟨‹_›, rfl⟩

theorem putU8_ok {d d' : DataSpace} {v : Byte} {a : Nat} (h : d.putU8 v a = .ok d') :
    d.valid a 1 ∧ d' = d.setByte a v := by
  unfold DataSpace.putU8 at h
  split at h <;> cases h
  exact ⟨‹_›, rfl⟩

theorem Except.bind_ok' {α β : Type} {x : Except Fault α} {f : α → Except Fault β} {b : β}
    (h : (x >>= f) = .ok b) : ∃ a, x = .ok a ∧ f a = .ok b := by
  cases x with
  | error e => cases h
  | ok a => exact ⟨a, rfl, h⟩

theorem compileCell_appends {oc : Bool} {d d' : DataSpace} {v : Cell}
    (hd : d.start + d.cap < 2 ^ 63) (h : d.compileCell oc v = .ok d') :
    d.len + 8 ≤ d.cap ∧ d' = { d.setCell d.here v with len := d.len + 8 } := by
  unfold DataSpace.compileCell at h
  split at h
  case isFalse => cases h
  rename_i hl
  simp only [DataSpace.here, DataSpace.limit] at hl
  obtain ⟨d1, h1, h2⟩ := Except.bind_ok' h
  obtain ⟨-, rfl⟩ := putCell_ok h1
  refine ⟨by omega, ?_⟩
  have := allot_small (k := 8) (d := d.setCell d.here v) (by simpa using hd) (by simp; omega) h2
  rw [this]
  simp

theorem compileU8_appends {oc : Bool} {d d' : DataSpace} {v : Byte}
    (hd : d.start + d.cap < 2 ^ 63) (h : d.compileU8 oc v = .ok d') :
    d.len + 1 ≤ d.cap ∧ d' = { d.setByte d.here v with len := d.len + 1 } := by
  unfold DataSpace.compileU8 at h
  split at h
  case isFalse => cases h
  rename_i hl
  simp only [DataSpace.here, DataSpace.limit] at hl
  obtain ⟨d1, h1, h2⟩ := Except.bind_ok' h
  obtain ⟨-, rfl⟩ := putU8_ok h1
  refine ⟨by omega, ?_⟩
  have := allot_small (k := 1) (d := d.setByte d.here v) (by simpa using hd) (by simp; omega) h2
  rw [this]
  simp

theorem appends_cell {d : DataSpace} {v : Cell} (hl : d.len + 8 ≤ d.cap) :
    Appends d { d.setCell d.here v with len := d.len + 8 } :=
  ⟨d.len + 8, _, by omega, hl, fun x hx => Verif.DataSpace.setCell_bytes_out (by simp [DataSpace.here]; omega), rfl⟩

theorem appends_byte {d : DataSpace} {v : Byte} (hl : d.len + 1 ≤ d.cap) :
    Appends d { d.setByte d.here v with len := d.len + 1 } :=
  ⟨d.len + 1, _, by omega, hl, fun x hx => if_neg (by simp only [DataSpace.here]; omega), rfl⟩

theorem compileBytes_appends {oc : Bool} : ∀ (bs : List Byte) {d d' : DataSpace},
    d.start + d.cap < 2 ^ 63 → d.len ≤ d.cap → d.compileBytes oc bs = .ok d' →
    Appends d d' := by
  intro bs
  induction bs with
  | nil => intro d d' _ hl h; cases h; exact .refl hl
  | cons b bs ih =>
    intro d d' hd hl h
    simp only [DataSpace.compileBytes] at h
    obtain ⟨d1, h1, h2⟩ := Except.bind_ok' h
    obtain ⟨h3, rfl⟩ := compileU8_appends hd h1
    exact (appends_byte h3).trans (ih (by simpa using hd) (by simpa using h3) h2)

theorem Appends.inSpace {d d' : DataSpace} (h : Appends d d') (hd : d.start + d.cap < 2 ^ 63) :
    d'.start + d'.cap < 2 ^ 63 ∧ d'.len ≤ d'.cap := by
  obtain ⟨n, b, h1, h2, h3, rfl⟩ := h
  exact ⟨hd, h2⟩

theorem compileStr_appends {oc : Bool} {bs : List Byte} {d d' : DataSpace} {a : Nat}
    (hd : d.start + d.cap < 2 ^ 63) (h : d.compileStr oc bs = .ok (a, d')) :
    Appends d d' ∧ a = d.here := by
  unfold DataSpace.compileStr at h
  split at h
  case isFalse => cases h
  obtain ⟨d1, h1, h2⟩ := Except.bind_ok' h
  obtain ⟨d2, h3, h4⟩ := Except.bind_ok' h2
  cases h4
  obtain ⟨h5, rfl⟩ := compileCell_appends hd h1
  have h6 := appends_cell (v := toCell bs.length) h5
  have h7 := h6.inSpace hd
  exact ⟨h6.trans (compileBytes_appends bs h7.1 h7.2 h3), rfl⟩

theorem align_appends {oc : Bool} {d d' : DataSpace} (hd : d.start + d.cap < 2 ^ 63)
    (hl : d.len ≤ d.cap) (h : d.align oc = .ok d') : Appends d d' := by
  unfold DataSpace.align at h
  rw [DataSpace.aligned_ok (by simp [DataSpace.here, usizeMod]; omega)] at h
  simp only [Except.ok_bind'] at h
  cases h
  unfold DataSpace.setHere
  split
  · rename_i hh
    simp only [DataSpace.limit, DataSpace.here] at hh ⊢
    exact ⟨_, d.bytes, by omega, by omega, fun _ _ => rfl, rfl⟩
  · exact .refl hl

namespace Spec.Does

variable {α β : Type} {K : List Kind} {A : Inv K}

theorem append (h : .memAppend ∈ K) {f : DataSpace → Except Fault DataSpace}
    (hf : ∀ d d', d.start + d.cap < 2 ^ 63 → d.len ≤ d.cap → f d = .ok d' → Appends d d') :
    Does A (dsOp f) := by
  intro s a s' hi e
  rw [dsOp_apply] at e
  split at e <;> cases e
  rename_i d hd
  obtain ⟨n, b, h1, h2, h3, rfl⟩ := hf _ _ hi.1.1 hi.1.2 hd
  exact .one h ⟨n, b, h1, h2, h3, rfl⟩

theorem compileCell (h : .memAppend ∈ K) (c : Ctx) (v : Cell) : Does A (Verif.compileCell c v) :=
  append h fun d d' h1 h2 e => by
    obtain ⟨h3, rfl⟩ := compileCell_appends h1 e
    exact appends_cell h3

theorem compileCell' (h : .memAppend ∈ K) (oc : Bool) (v : Cell) :
    Does A (dsOp fun d => d.compileCell oc v) :=
  append h fun d d' h1 h2 e => by
    obtain ⟨h3, rfl⟩ := compileCell_appends h1 e
    exact appends_cell h3

theorem compileWord (h : .memAppend ∈ K) (c : Ctx) (i : Nat) : Does A (Verif.compileWord c i) :=
  compileCell h c _

theorem dsAlign (h : .memAppend ∈ K) (oc : Bool) : Does A (dsOp fun d => d.align oc) :=
  append h fun _ _ h1 h2 e => align_appends h1 h2 e

theorem compileStrM (h : .memAppend ∈ K) (c : Ctx) (bs : List Byte) :
    Does A (Verif.compileStrM c bs) := by
  intro s a s' hi e
  simp only [Verif.compileStrM] at e
  split at e <;> cases e
  rename_i d hd
  obtain ⟨⟨n, b, h1, h2, h3, rfl⟩, -⟩ := compileStr_appends hi.1.1 hd
  exact .one h ⟨n, b, h1, h2, h3, rfl⟩

/-- `d'` differs from `d` only inside the data space. -/
def _root_.Verif.Writes (d d' : DataSpace) : Prop :=
  ∃ b, (∀ x, x < d.start ∨ d.start + d.cap ≤ x → b x = d.bytes x) ∧ d' = { d with bytes := b }

theorem _root_.Verif.Writes.trans {d e f : DataSpace} (h : Writes d e) (k : Writes e f) :
    Writes d f := by
  obtain ⟨b, h1, rfl⟩ := h
  obtain ⟨b', h2, rfl⟩ := k
  exact ⟨b', fun x hx => (h2 x hx).trans (h1 x hx), rfl⟩

theorem _root_.Verif.Writes.refl (d : DataSpace) : Writes d d := ⟨_, fun _ _ => rfl, rfl⟩

theorem _root_.Verif.Writes.cell {d : DataSpace} {a : Nat} {v : Cell} (h : d.valid a 8) :
    Writes d (d.setCell a v) :=
  ⟨_, fun x hx => Verif.DataSpace.setCell_bytes_out (by simp [DataSpace.valid, DataSpace.limit] at h; omega), rfl⟩

theorem _root_.Verif.Writes.byte {d : DataSpace} {a : Nat} {v : Byte} (h : d.valid a 1) :
    Writes d (d.setByte a v) :=
  ⟨_, fun x hx => if_neg (by simp only [DataSpace.valid, DataSpace.limit] at h; omega), rfl⟩

theorem write (h : .memWrite ∈ K) {f : DataSpace → Except Fault DataSpace}
    (hf : ∀ d d', f d = .ok d' → Writes d d') : Does A (dsOp f) := by
  intro s a s' hi e
  rw [dsOp_apply] at e
  split at e <;> cases e
  rename_i d hd
  obtain ⟨b, h1, rfl⟩ := hf _ _ hd
  exact .one h ⟨s.ds.start, s.ds.cap, b, Nat.le_refl _, Nat.le_refl _, h1, rfl⟩

theorem putCell (h : .memWrite ∈ K) (v : Cell) (a : Nat) : Does A (dsOp fun d => d.putCell v a) :=
  write h fun d d' e => by obtain ⟨h1, rfl⟩ := putCell_ok e; exact .cell h1

theorem putU8 (h : .memWrite ∈ K) (v : Byte) (a : Nat) : Does A (dsOp fun d => d.putU8 v a) :=
  write h fun d d' e => by obtain ⟨h1, rfl⟩ := putU8_ok e; exact .byte h1

theorem _root_.Verif.moveUp_writes (n : Nat) : ∀ (d d' : DataSpace) (a b : Nat),
    moveUp d a b n = .ok d' → Writes d d' := by
  induction n with
  | zero => intro d d' a b h; cases h; exact .refl d
  | succ n ih =>
    intro d d' a b h
    simp only [Verif.moveUp] at h
    obtain ⟨v, -, h2⟩ := Except.bind_ok' h
    obtain ⟨d1, h1, h3⟩ := Except.bind_ok' h2
    obtain ⟨h4, rfl⟩ := putU8_ok h1
    exact (Writes.byte h4).trans (ih _ _ _ _ h3)

theorem _root_.Verif.moveDown_writes (n : Nat) : ∀ (d d' : DataSpace) (a b : Nat),
    moveDown d a b n = .ok d' → Writes d d' := by
  induction n with
  | zero => intro d d' a b h; cases h; exact .refl d
  | succ n ih =>
    intro d d' a b h
    simp only [Verif.moveDown] at h
    obtain ⟨v, -, h2⟩ := Except.bind_ok' h
    obtain ⟨d1, h1, h3⟩ := Except.bind_ok' h2
    obtain ⟨h4, rfl⟩ := putU8_ok h1
    exact (Writes.byte h4).trans (ih _ _ _ _ h3)

theorem _root_.Verif.labelLoop_writes (here n : Nat) : ∀ (p : Nat) (d d' : DataSpace),
    labelLoop here n p d = .ok d' → Writes d d' := by
  induction n with
  | zero => intro p d d' h; cases h
  | succ n ih =>
    intro p d d' h
    simp only [Verif.labelLoop] at h
    obtain ⟨v, -, h2⟩ := Except.bind_ok' h
    obtain ⟨d1, h1, h3⟩ := Except.bind_ok' h2
    obtain ⟨h4, rfl⟩ := putCell_ok h1
    split at h3
    · cases h3; exact .cell h4
    · exact (Writes.cell h4).trans (ih _ _ _ h3)

theorem _root_.Verif.putCstrLoop_writes (bs : List Byte) : ∀ (p : Nat) (d d' : DataSpace),
    d.putCstrLoop bs p = .ok d' → Writes d d' := by
  induction bs with
  | nil => intro p d d' h; cases h; exact .refl d
  | cons b bs ih =>
    intro p d d' h
    simp only [DataSpace.putCstrLoop] at h
    obtain ⟨d1, h1, h3⟩ := Except.bind_ok' h
    obtain ⟨h4, rfl⟩ := putU8_ok h1
    exact (Writes.byte h4).trans (ih _ _ _ h3)

theorem _root_.Verif.putCstr_writes {oc : Bool} {bs : List Byte} {p : Nat} {d d' : DataSpace}
    (h : d.putCstr oc bs p = .ok d') : Writes d d' := by
  simp only [DataSpace.putCstr] at h
  obtain ⟨e1, -, h⟩ := Except.bind_ok' h
  obtain ⟨e2, -, h⟩ := Except.bind_ok' h
  split at h
  · obtain ⟨d1, h1, h3⟩ := Except.bind_ok' h
    obtain ⟨h4, rfl⟩ := putU8_ok h1
    exact (Writes.byte h4).trans (putCstrLoop_writes _ _ _ _ h3)
  · cases h

theorem dsMoveUp (h : .memWrite ∈ K) (a b n : Nat) : Does A (dsOp fun d => moveUp d a b n) :=
  write h fun _ _ e => moveUp_writes _ _ _ _ _ e
theorem dsMoveDown (h : .memWrite ∈ K) (a b n : Nat) : Does A (dsOp fun d => moveDown d a b n) :=
  write h fun _ _ e => moveDown_writes _ _ _ _ _ e
theorem dsLabel (h : .memWrite ∈ K) (p : Nat) :
    Does A (dsOp fun d => labelLoop d.here (d.cap + 1) p d) :=
  write h fun _ _ e => labelLoop_writes _ _ _ _ _ e
theorem putCstr (h : .memWrite ∈ K) (oc : Bool) (bs : List Byte) (p : Nat) :
    Does A (dsOp fun d => d.putCstr oc bs p) := write h fun _ _ e => putCstr_writes e

theorem hereOp (h : .memHere ∈ K) {f : DataSpace → Except Fault DataSpace}
    (hf : ∀ d d', f d = .ok d' → ∃ p, d' = d.setHere p) : Does A (dsOp f) := by
  intro s a s' hi e
  rw [dsOp_apply] at e
  split at e <;> cases e
  rename_i d hd
  obtain ⟨p, rfl⟩ := hf _ _ hd
  unfold DataSpace.setHere
  split
  · rename_i hp
    simp only [DataSpace.limit] at hp
    exact .one h ⟨_, by omega, rfl⟩
  · exact .refl _

theorem dsAllot (h : .memHere ∈ K) (oc : Bool) (v : Cell) : Does A (dsOp fun d => d.allot oc v) :=
  hereOp h fun _ _ e => allot_setHere e
theorem dsTruncate (h : .memHere ∈ K) (p : Nat) :
    Does A (dsOp fun d => Except.ok (d.truncate p)) :=
  hereOp h fun _ _ e => by cases e; exact ⟨p, rfl⟩

theorem dsSetBytes (h : .memWrite ∈ K) (a : Nat) (bs : List Byte) (s : VM) (hi : s.ds.valid a bs.length)
    {u : Unit} {s' : VM} (e : dsOp (fun d => Except.ok (d.setBytes a bs)) s = .ok (u, s')) :
    Changes K s s' := by
  cases e
  simp only [DataSpace.valid, DataSpace.limit] at hi
  refine .one h ⟨a, bs.length, _, hi.1, hi.2, fun x hx => if_neg (by omega), rfl⟩

/-! ## Words -/

theorem modLast (h : .wordLast ∈ K) (f : Word → Word) (hf : ∀ w, SameEntry w (f w)) :
    Does A (Verif.getWl >>= fun wl => modWord wl.last f) := by
  intro s a s' _ e
  simp only [M.bind_apply, getWl_apply, modWord_apply] at e
  split at e <;> cases e
  rename_i w hw
  exact .one h ⟨w, f w, hw, hf w, rfl⟩

theorem abortWith (h : .raise ∈ K) {c : Ctx} (hex : Does A (runHandler c)) (e : Exn)
    (he : Reserved e) : Does A (Verif.abortWith c e) := by
  intro s a s' hi h'
  have h0 : Changes K s (raised s e) := .one h ⟨e, he, rfl⟩
  have h1 : Verif.abortWith c e s = Spec.runHandler c (raised s e) := abortWith_run c e s
  rw [h1] at h'
  exact h0.trans (hex _ _ _ (h0.fit hi) h')

end Spec.Does

/-! ## Reading the input -/

theorem M.bind_inv {α β : Type} {m : M α} {k : α → M β} {s s' : VM} {b : β}
    (h : (m >>= k) s = .ok (b, s')) : ∃ a s1, m s = .ok (a, s1) ∧ k a s1 = .ok (b, s') := by
  rw [M.bind_apply] at h
  split at h
  · exact ⟨_, _, ‹_›, h⟩
  · cases h

theorem set_getElem?_self {α : Type} (l : List α) (i : Nat) (x : α) (h : l[i]? = some x) :
    l.set i x = l := by
  apply List.ext_getElem?
  intro j
  rw [List.getElem?_set]
  split
  · subst_vars
    split
    · exact h.symm
    · rename_i hh
      rw [List.getElem?_eq_none (by omega)]
  · rfl

theorem takeInput_inv {s s1 : VM} {b : Option (List Char)} (h : takeInput s = .ok (b, s1)) :
    ∃ ln ib, s1 = s.setTask { s.task with lines := ln, inbuf := ib } ∧
      (∀ t' : Task, t'.lines = ln → t'.inbuf = ib → t'.st.sourceId = s.task.st.sourceId →
        ∀ b', b = some b' →
        setInputBuffer t' (some b') = .ok { t' with lines := s.task.lines, inbuf := s.task.inbuf }) ∧
      (b = none → ln = s.task.lines ∧ ib = s.task.inbuf) := by
  have hb : inputBuffer s.task = .ok b := by
    simp only [takeInput] at h
    split at h <;> cases h
    assumption
  obtain ⟨t, h1, h2, h3, h4, h5, h6, h7, h8⟩ := takeInput_ok hb
  rw [h2] at h
  cases h
  have ht : t = { s.task with lines := t.lines, inbuf := t.inbuf } ∧
      (b = none → t.lines = s.task.lines ∧ t.inbuf = s.task.inbuf) := by
    simp only [inputBuffer] at hb
    simp only [setInputBuffer] at h1
    split at h1
    · split at h1 <;> cases h1
      rename_i hs hl
      refine ⟨rfl, fun hn => ⟨?_, rfl⟩⟩
      rw [if_pos hs] at hb
      split at hb
      · rename_i l hl'
        cases hb
        exact set_getElem?_self _ _ _ (by rw [hl', hn])
      · cases hb
    · rename_i hs
      cases h1
      refine ⟨rfl, fun hn => ⟨rfl, ?_⟩⟩
      rw [if_neg hs] at hb
      cases hb
      exact hn.symm
  refine ⟨t.lines, t.inbuf, by rw [← ht.1], ?_, ht.2⟩
  intro t' e1 e2 e3 b' hb'
  exact h8 t' e1 e2 e3 b' hb'

theorem takeInputE_inv {s s1 : VM} {b : List Char} (h : takeInputE s = .ok (b, s1)) :
    takeInput s = .ok (some b, s1) := by
  obtain ⟨a, s2, h1, h2⟩ := M.bind_inv h
  cases a with
  | none => cases h2
  | some b' => cases h2; exact h1

theorem takeToken_inv {s s1 : VM} {t : List Char} (h : takeToken s = .ok (t, s1)) :
    s.tkn = some t ∧ s1 = { s with tkn := none } := by
  simp only [takeToken] at h
  split at h <;> cases h
  exact ⟨‹_›, rfl⟩

theorem sourceFrom_inv {s s1 : VM} {b r : List Char} {i : Nat}
    (h : sourceFrom b i s = .ok (r, s1)) : s1 = s := by
  unfold sourceFrom at h
  cases hx : splitAtByte b i with
  | none => rw [hx] at h; cases h
  | some x => rw [hx] at h; cases h; rfl

theorem liftE_inv {α : Type} {x : Except Fault α} {s s1 : VM} {a : α}
    (h : liftE x s = .ok (a, s1)) : x = .ok a ∧ s1 = s := by
  cases x <;> cases h
  exact ⟨rfl, rfl⟩

theorem dsRd_inv {α : Type} {f : DataSpace → Except Fault α} {s s1 : VM} {a : α}
    (h : dsRd f s = .ok (a, s1)) : f s.ds = .ok a ∧ s1 = s := by
  rw [dsRd_apply] at h
  split at h <;> cases h
  exact ⟨‹_›, rfl⟩

theorem putInput_inv {s s1 : VM} {b : List Char} {u : Unit} (h : putInput b s = .ok (u, s1)) :
    ∃ t, setInputBuffer s.task (some b) = .ok t ∧ s1 = s.setTask t := by
  simp only [putInput] at h
  split at h <;> cases h
  exact ⟨_, ‹_›, rfl⟩

/-- Reading a word moves the position and replaces the token, and changes nothing else. -/
theorem parseWord_result {s s' : VM} {u : Unit} (h : parseWord s = .ok (u, s')) :
    ∃ tok n, s' = { s.setTask { s.task with st := { s.task.st with sourceIndex := n } } with
      tkn := some tok } := by
  unfold parseWord at h
  obtain ⟨t0, s1, h1, h⟩ := M.bind_inv h
  obtain ⟨h0, rfl⟩ := takeToken_inv h1
  obtain ⟨b, s2, h2, h⟩ := M.bind_inv h
  obtain ⟨ln, ib, rfl, hput, hnone⟩ := takeInput_inv h2
  cases b with
  | none =>
    cases h
    obtain ⟨rfl, rfl⟩ := hnone rfl
    exact ⟨[], s.task.st.sourceIndex, by simp [VM.setTask, VM.task]⟩
  | some buf =>
    simp only at h
    rw [M.bind_apply, getSt_apply] at h
    simp only at h
    split at h
    · obtain ⟨src, s3, h3, h⟩ := M.bind_inv h
      obtain rfl := sourceFrom_inv h3
      obtain ⟨_, s4, h4, h⟩ := M.bind_inv h
      cases h4
      obtain ⟨_, s5, h5, h⟩ := M.bind_inv h
      obtain ⟨t, h6, rfl⟩ := putInput_inv h5
      rw [hput _ (by simp) (by simp) (by simp) buf rfl] at h6
      cases h6
      cases h
      refine ⟨(scanWord src 0 []).1, s.task.st.sourceIndex + (scanWord src 0 []).2, ?_⟩
      simp only [VM.setTask, VM.task, VM.mk.injEq, if_true, true_and, and_true]
      funext i
      split <;> rfl
    · obtain ⟨_, s5, h5, h⟩ := M.bind_inv h
      obtain ⟨t, h6, rfl⟩ := putInput_inv h5
      rw [hput _ (by simp) (by simp) (by simp) buf rfl] at h6
      cases h6
      cases h
      refine ⟨[], s.task.st.sourceIndex, ?_⟩
      simp only [VM.setTask, VM.task, VM.mk.injEq, if_true, true_and, and_true]
      funext i
      split <;> rfl

theorem parse_result {c : Ctx} {s s' : VM} {u : Unit} (h : parse c s = .ok (u, s')) :
    ∃ x tok n, s' = { s.setTask { s.task with s := x, st := { s.task.st with sourceIndex := n } } with
      tkn := some tok } := by
  unfold parse at h
  obtain ⟨buf, s2, h2, h⟩ := M.bind_inv h
  obtain ⟨ln, ib, rfl, hput, hnone⟩ := takeInput_inv (takeInputE_inv h2)
  obtain ⟨v, s3, h3, h⟩ := M.bind_inv h
  cases h3
  obtain ⟨t0, s1, h1, h⟩ := M.bind_inv h
  obtain ⟨h0, rfl⟩ := takeToken_inv h1
  rw [M.bind_apply, getSt_apply] at h
  simp only at h
  obtain ⟨src, s3, h3, h⟩ := M.bind_inv h
  obtain rfl := sourceFrom_inv h3
  obtain ⟨p, s4, h4, h⟩ := M.bind_inv h
  obtain ⟨-, rfl⟩ := liftE_inv h4
  obtain ⟨_, s4, h4, h⟩ := M.bind_inv h
  cases h4
  obtain ⟨_, s4, h4, h⟩ := M.bind_inv h
  cases h4
  obtain ⟨t, h6, rfl⟩ := putInput_inv h
  rw [hput _ (by simp [VM.setTask, VM.task]) (by simp [VM.setTask, VM.task]) (by simp [VM.setTask, VM.task]) buf rfl] at h6
  cases h6
  refine ⟨s.task.s.pop.2, (scanTo s.task.s.pop.1 src 0 []).1, p, ?_⟩
  simp only [VM.setTask, VM.task, VM.mk.injEq, if_true, true_and, and_true]
  funext i
  split <;> rfl

theorem skip_result {c : Ctx} {s s' : VM} {u : Unit} (h : skip c s = .ok (u, s')) :
    ∃ x n, s' = s.setTask { s.task with s := x, st := { s.task.st with sourceIndex := n } } := by
  unfold skip at h
  obtain ⟨buf, s2, h2, h⟩ := M.bind_inv h
  obtain ⟨ln, ib, rfl, hput, hnone⟩ := takeInput_inv (takeInputE_inv h2)
  obtain ⟨v, s3, h3, h⟩ := M.bind_inv h
  cases h3
  rw [M.bind_apply, getSt_apply] at h
  simp only at h
  obtain ⟨src, s3, h3, h⟩ := M.bind_inv h
  obtain rfl := sourceFrom_inv h3
  obtain ⟨p, s4, h4, h⟩ := M.bind_inv h
  obtain ⟨-, rfl⟩ := liftE_inv h4
  obtain ⟨_, s4, h4, h⟩ := M.bind_inv h
  cases h4
  obtain ⟨t, h6, rfl⟩ := putInput_inv h
  rw [hput _ (by simp [VM.setTask, VM.task]) (by simp [VM.setTask, VM.task]) (by simp [VM.setTask, VM.task]) buf rfl] at h6
  cases h6
  refine ⟨s.task.s.pop.2, p, ?_⟩
  simp only [VM.setTask, VM.task, VM.mk.injEq, if_true, true_and, and_true]
  funext i
  split <;> rfl

theorem dotInput_result {s s' : VM} {u : Unit} (h : dotInput s = .ok (u, s')) :
    ∃ x, s' = { s with outbuf := s.outbuf.map (· ++ x) } := by
  unfold dotInput at h
  obtain ⟨b, s2, h2, h⟩ := M.bind_inv h
  obtain ⟨ln, ib, rfl, hput, hnone⟩ := takeInput_inv h2
  cases b with
  | none =>
    cases h
    obtain ⟨rfl, rfl⟩ := hnone rfl
    exact ⟨[], by
      rw [show ({ s.task with lines := s.task.lines, inbuf := s.task.inbuf } : Task) = s.task from rfl,
        VM.setTask_task]
      simp⟩
  | some buf =>
    obtain ⟨_, s3, h3, h⟩ := M.bind_inv h
    cases h3
    obtain ⟨t, h6, rfl⟩ := putInput_inv h
    rw [hput _ (by simp [VM.setTask, VM.task]) (by simp [VM.setTask, VM.task]) (by simp [VM.setTask, VM.task]) buf rfl] at h6
    cases h6
    refine ⟨utf8 buf, ?_⟩
    simp only [VM.setTask, VM.task, VM.mk.injEq, if_true, true_and, and_true]
    funext i
    split
    · subst_vars; rfl
    · rfl

namespace Spec.Does

variable {α β : Type} {K : List Kind} {A : Inv K}

theorem parseWord (h1 : .token ∈ K) (h2 : .sourceIndex ∈ K) : Does A Verif.parseWord := by
  intro s a s' _ h
  obtain ⟨tok, n, rfl⟩ := parseWord_result h
  exact .tail (.one h2 ⟨n, rfl⟩) h1 ⟨tok, rfl⟩

theorem parse (h0 : .dataStack ∈ K) (h1 : .token ∈ K) (h2 : .sourceIndex ∈ K) (c : Ctx) :
    Does A (Verif.parse c) := by
  intro s a s' _ h
  obtain ⟨x, tok, n, rfl⟩ := parse_result h
  refine .tail (.tail (.one h0 ⟨x, rfl⟩) h2 ⟨n, rfl⟩) h1 ⟨tok, ?_⟩
  simp

theorem skip (h0 : .dataStack ∈ K) (h2 : .sourceIndex ∈ K) (c : Ctx) :
    Does A (Verif.skip c) := by
  intro s a s' _ h
  obtain ⟨x, n, rfl⟩ := skip_result h
  refine .tail (.one h0 ⟨x, rfl⟩) h2 ⟨n, ?_⟩
  simp

theorem dotInput (h0 : .output ∈ K) : Does A Verif.dotInput := by
  intro s a s' _ h
  exact .one h0 (dotInput_result h)

end Spec.Does

/-! ## Computations that do not look at the token -/

/-- The token plays no part in `m`. -/
def Deaf {α : Type} (m : M α) : Prop :=
  ∀ s x, m { s with tkn := x } = (m s).map fun p => (p.1, { p.2 with tkn := x })

/-- `m` replaces the token without looking at it. -/
def Covers {α : Type} (m : M α) : Prop := ∀ s x, m { s with tkn := x } = m s

namespace Deaf
variable {α β : Type}

theorem pure (a : α) : Deaf (Pure.pure a : M α) := fun _ _ => rfl
theorem fault (e : Fault) : Deaf (Verif.fault e : M α) := fun _ _ => rfl
theorem bind {m : M α} {k : α → M β} (hm : Deaf m) (hk : ∀ a, Deaf (k a)) : Deaf (m >>= k) := by
  intro s x
  rw [M.bind_apply, M.bind_apply, hm]
  cases m s with
  | error e => rfl
  | ok p => exact hk p.1 p.2 x
theorem liftE (x : Except Fault α) : Deaf (Verif.liftE x) := fun s y => by cases x <;> rfl
theorem getSt : Deaf Verif.getSt := fun _ _ => rfl
theorem getWl : Deaf Verif.getWl := fun _ _ => rfl
theorem getRefs : Deaf Verif.getRefs := fun _ _ => rfl
theorem getError : Deaf Verif.getError := fun _ _ => rfl
theorem getHere : Deaf Verif.getHere := fun _ _ => rfl
theorem setError (e : Option Exn) : Deaf (Verif.setError e) := fun _ _ => rfl
theorem sPush (v : Cell) : Deaf (Verif.sPush v) := fun _ _ => rfl
theorem fPush (v : F64) : Deaf (Verif.fPush v) := fun _ _ => rfl
theorem outBytes (bs : List Byte) : Deaf (Verif.outBytes bs) := fun _ _ => rfl
theorem wlPush (n : List Byte) (w : Word) : Deaf (Verif.wlPush n w) := fun _ _ => rfl
theorem find (c : Ctx) (n : List Byte) : Deaf (Verif.find c n) := fun s x => by
  have : ∀ (h : BitVec 32) (fuel i : Nat),
      Verif.findLoop c.oc { s with tkn := x } h n fuel i = Verif.findLoop c.oc s h n fuel i := by
    intro h fuel
    induction fuel with
    | zero => intro i; rfl
    | succ k ih => intro i; simp only [Verif.findLoop, ih]
  simp only [Verif.find, this]
  cases Verif.findLoop c.oc s (Wordlist.hash n) n (s.wl.words.length + 1)
    (s.wl.buckets (Wordlist.bucketOf (Wordlist.hash n))) <;> rfl
theorem dsRd (f : DataSpace → Except Fault α) : Deaf (Verif.dsRd f) := fun s x => by
  simp only [Verif.dsRd]
  cases f s.ds <;> rfl
theorem dsOp (f : DataSpace → Except Fault DataSpace) : Deaf (Verif.dsOp f) := fun s x => by
  simp only [Verif.dsOp]
  cases f s.ds <;> rfl
theorem compileStrM (c : Ctx) (bs : List Byte) : Deaf (Verif.compileStrM c bs) := fun s x => by
  simp only [Verif.compileStrM]
  cases s.ds.compileStr c.oc bs <;> rfl

end Deaf

namespace Covers
variable {α β : Type}

theorem fault (e : Fault) : Covers (Verif.fault e : M α) := fun _ _ => rfl
theorem put (t : List Char) : Covers (Verif.putToken t) := fun _ _ => rfl
theorem putThen (t : List Char) (k : Unit → M β) : Covers (Verif.putToken t >>= k) := fun _ _ => rfl
theorem bind {m : M α} {k : α → M β} (hm : Deaf m) (hk : ∀ a, Covers (k a)) : Covers (m >>= k) := by
  intro s x
  rw [M.bind_apply, M.bind_apply, hm]
  cases m s with
  | error e => rfl
  | ok p => exact hk p.1 p.2 x

end Covers

/-- One step of the proof that a computation does not look at the token, or puts it back first. -/
macro "covers_step" : tactic => `(tactic| first
  | assumption
  | with_reducible exact Covers.put _
  | with_reducible exact Covers.putThen _ _
  | with_reducible exact Covers.fault _
  | with_reducible exact Deaf.pure _
  | with_reducible exact Deaf.fault _
  | with_reducible exact Deaf.liftE _
  | with_reducible exact Deaf.getSt
  | with_reducible exact Deaf.getWl
  | with_reducible exact Deaf.getRefs
  | with_reducible exact Deaf.getError
  | with_reducible exact Deaf.getHere
  | with_reducible exact Deaf.setError _
  | with_reducible exact Deaf.sPush _
  | with_reducible exact Deaf.fPush _
  | with_reducible exact Deaf.outBytes _
  | with_reducible exact Deaf.wlPush _ _
  | with_reducible exact Deaf.find _ _
  | with_reducible exact Deaf.dsRd _
  | with_reducible exact Deaf.dsOp _
  | with_reducible exact Deaf.compileStrM _ _
  | with_reducible refine Covers.bind ?_ (fun _ => ?_)
  | with_reducible refine Deaf.bind ?_ (fun _ => ?_)
  | split
  | dsimp only)

/-- Prove `Covers m` or `Deaf m` by following the structure of `m`. -/
macro "covers" : tactic => `(tactic| repeat' covers_step)

theorem Deaf.compileInteger (c : Ctx) (v : Cell) : Deaf (Verif.compileInteger c v) := by
  unfold Verif.compileInteger compileWord compileCell; covers

theorem Deaf.compileFloat (c : Ctx) (v : F64) : Deaf (Verif.compileFloat c v) := by
  unfold Verif.compileFloat compileWord; covers

theorem Deaf.redefining (b : Bool) (t : List Char) : Deaf (Verif.redefining b t) := by
  unfold Verif.redefining; covers

theorem Deaf.evaluateInteger (c : Ctx) (t : List Byte) : Deaf (Verif.evaluateInteger c t) := by
  have := Deaf.compileInteger c
  unfold Verif.evaluateInteger; covers
  all_goals exact this _

theorem Deaf.evaluateFloat (c : Ctx) (t : List Byte) : Deaf (Verif.evaluateFloat c t) := by
  have := Deaf.compileFloat c
  unfold Verif.evaluateFloat; covers
  all_goals exact this _

theorem Covers.evaluateNumber (c : Ctx) (t : List Char) : Covers (Verif.evaluateNumber c t) := by
  have h1 := Deaf.evaluateInteger c (utf8 t)
  have h2 := Deaf.evaluateFloat c (utf8 t)
  unfold Verif.evaluateNumber; covers

theorem Covers.elim {α : Type} {m : M α} {s : VM} {x : Option (List Char)} {r : Except Fault (α × VM)}
    (e : m { s with tkn := x } = r) (h : Covers m) : m s = r := (h s x).symm.trans e

/-- Taking the token makes no difference when it is put back before anything looks at it. -/
theorem Spec.Does.take {α : Type} {K : List Kind} {A : Inv K} {k : List Char → M α}
    (hc : ∀ t, Covers (k t)) (hk : ∀ t, Does A (k t)) : Does A (Verif.takeToken >>= k) := by
  intro s a s' hi h
  obtain ⟨t, s1, h1, h⟩ := M.bind_inv h
  obtain ⟨-, rfl⟩ := takeToken_inv h1
  rw [hc t s none] at h
  exact hk t s a s' hi h

end Verif
