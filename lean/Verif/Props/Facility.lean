import Verif.Lemmas.Facility
import Verif.Props.Library

/-!
# C37: facilities shared by tasks
-/

namespace Verif
open Spec Stack

variable {lv lo hi g r A n : Nat} {ix : String → Nat} {b s t : VM} {cfg : Cfg} {H : Fin 5 → Bool}

theorem mark_inj {j k : Fin 5} (h : mark j = mark k) : j = k := by revert j k; decide

theorem mark_ne (k : Fin 5) : mark k ≠ 0 := by revert k; decide

theorem holders_quiet (h1 : place s s.cur ≠ g + 72) (h2 : place s s.cur ≠ r + 72) : holders g r A s H = H := by
  funext k
  simp only [holders]
  split
  · rename_i h
    rw [h.1, if_neg h1, if_neg h2]
  · rfl

/-- What holds at all times while tasks use the facility. -/
structure Sound (lv lo hi g r A : Nat) (b s : VM) (H : Fin 5 → Bool) : Prop where
  loaded : Loaded b.refs lv b.wl lo hi s.cur b.ds s
  spots : ∀ k, Spot lo hi g r A b.ds (decide (k = s.cur)) (mark k) s.ds (place s k) (dataOf s k) (retOf s k)
  held : ∀ k, H k = true ↔ s.ds.cellAt A = mark k
  cell : s.ds.cellAt A = 0 ∨ ∃ k, s.ds.cellAt A = mark k

theorem spot_enters {on : Bool} {c : Cell} {m : DataSpace} {k : Fin 5} (h : Elsewhere g r (place s k) ∨ Enters lo hi g r A b s k) :
    Spot lo hi g r A b.ds on c m (place s k) (dataOf s k) (retOf s k) := by
  rcases h with h | ⟨hp, ⟨x, l, h1, h2, h3⟩, z, rs, h4, h5, h6⟩
  · exact .out h
  · rw [h1, h4]
    rcases hp with hp | hp <;> rw [hp]
    · exact .g0 ⟨h2, h3, h5, h6⟩
    · exact .r0 ⟨h2, h3, h5, h6⟩

theorem Sound.moved (h : Sound lv lo hi g r A b s H) {p : Nat} {l rs : List Cell} {m : DataSpace} (hm : Moved s t p l rs m)
    (sp : Spot lo hi g r A b.ds true (mark s.cur) m p l rs) (k : Fin 5) :
    Spot lo hi g r A b.ds (decide (k = t.cur)) (mark k) t.ds (place t k) (dataOf t k) (retOf t k) := by
  rw [hm.cur, hm.ds]
  by_cases hk : k = s.cur
  · subst hk
    rw [hm.place, hm.data, hm.ret]
    simpa using sp
  · have := h.spots k
    simp only [hk, decide_false] at this ⊢
    simp only [place, dataOf, retOf, hm.others k hk]
    exact this.idle

theorem Usage.sound (hf : HasFacilities lv lo hi g r ix b) (hA : A < 2 ^ 64) (hu : Usage lv lo hi g r A b cfg n s H) :
    Sound lv lo hi g r A b s H := by
  induction hu with
  | start h1 h2 h3 =>
    refine ⟨h1, fun k => spot_enters (h2 k), fun k => ?_, .inl h3⟩
    rw [h3]
    exact iff_of_false Bool.false_ne_true fun h => mark_ne k h.symm
  | @inside s t H _ hn hs ih =>
    have hsp := ih.spots s.cur
    simp only [decide_true] at hsp
    have hap := hf.apart
    obtain ⟨ho, hL⟩ := step_inside hf ih.loaded hsp hn hs
    have hL' : ∀ {p : Nat} {l rs : List Cell} {m : DataSpace}, Moved s t p l rs m → place s s.cur ≠ g + 32 →
        Loaded b.refs lv b.wl lo hi t.cur b.ds t := fun hm hp => by rw [hm.cur]; exact hL.resolve_right hp
    have other : ∀ {x : Cell} {l : List Cell}, dataOf s s.cur = x :: l → x.toNat ≠ A → holders g r A s H = H := by
      intro x l hd hx
      funext k
      simp only [holders]
      rw [if_neg]
      rintro ⟨rfl, h2⟩
      rw [hd] at h2
      cases h2
      rw [BitVec.toNat_ofNat, Nat.mod_eq_of_lt hA] at hx
      exact hx rfl
    cases ho with
    | quiet hm sp n1 n2 =>
      rw [holders_quiet n1 n2]
      refine ⟨?_, ih.moved hm sp, by rw [hm.ds]; exact ih.held, by rw [hm.ds]; exact ih.cell⟩
      have := ih.loaded.congr (t := t) hm.cur hm.ds hm.wl
      rw [hm.cur]; exact this
    | @took x z l rs ha hm hz hd hp =>
      suffices hh : _ ∧ _ from ⟨hL' hm (by omega), ih.moved hm (.g80 ha rfl), hh.1, hh.2⟩
      rw [hm.ds]
      by_cases hx : x.toNat = A
      · rw [hx, DataSpace.cellAt_setCell]
        rw [hx] at hz
        have hxa : x = BitVec.ofNat 64 A := by rw [← hx]; simp
        refine ⟨fun k => ?_, .inr ⟨_, rfl⟩⟩
        by_cases hk : k = s.cur
        · subst hk
          simp [holders, hd, hxa, hp]
        · have h0 : ¬H k = true := fun h => mark_ne k (((ih.held k).1 h).symm.trans hz)
          simp only [holders, hk, false_and, if_false]
          exact iff_of_false h0 fun h => hk (mark_inj h).symm
      · rw [other hd hx, DataSpace.cellAt_setCell_ne (by have := ha.fac.whole; omega)]
        exact ⟨ih.held, ih.cell⟩
    | @gave x z l rs ha hm hz hd hp =>
      suffices hh : _ ∧ _ from ⟨hL' hm (by omega), ih.moved hm (.r80 ha rfl), hh.1, hh.2⟩
      rw [hm.ds]
      by_cases hx : x.toNat = A
      · rw [hx, DataSpace.cellAt_setCell]
        rw [hx] at hz
        have hxa : x = BitVec.ofNat 64 A := by rw [← hx]; simp
        refine ⟨fun k => ?_, .inl rfl⟩
        refine iff_of_false ?_ fun h => mark_ne k h.symm
        by_cases hk : k = s.cur
        · subst hk
          simp only [holders, hd, hxa, hp]
          simp
          omega
        · simp only [holders, hk, false_and, if_false]
          intro h
          exact hk (mark_inj (((ih.held k).1 h).symm.trans hz))
      · rw [other hd hx, DataSpace.cellAt_setCell_ne (by have := ha.fac.whole; omega)]
        exact ⟨ih.held, ih.cell⟩
    | @waits j wp x z l rs ha hj hd hr hp =>
      rw [holders_quiet (by omega) (by omega)]
      have hLs := ih.loaded
      subst hj
      refine ⟨⟨rfl, hLs.start, hLs.cap, hLs.code, hLs.words, hLs.kept⟩, fun k => ?_, ih.held, ih.cell⟩
      have key : Spot lo hi g r A b.ds false (mark k) s.ds (place (s.at (g + 40) wp) k) (dataOf s k) (retOf s k) := by
        by_cases hk : k = s.cur
        · subst hk
          rw [hd, hr, show place (s.at (g + 40) wp) s.cur = g + 40 by simp [place, VM.at, VM.setTask]]
          exact .g40 ha
        · have := ih.spots k
          simp only [hk, decide_false] at this
          rwa [show place (s.at (g + 40) wp) k = place s k by simp [place, VM.at, VM.setTask, hk]]
      have e1 : dataOf { s.at (g + 40) wp with cur := j } k = dataOf s k := by
        by_cases hk : k = s.cur <;> simp [dataOf, VM.at, VM.setTask, hk, VM.task]
      have e2 : retOf { s.at (g + 40) wp with cur := j } k = retOf s k := by
        by_cases hk : k = s.cur <;> simp [retOf, VM.at, VM.setTask, hk, VM.task]
      rw [e1, e2]
      exact key.idle
  | @outside s t H _ he hb ih =>
    have e : t.ds.cellAt A = s.ds.cellAt A := DataSpace.cellAt_congr hb.cell
    refine ⟨hb.loaded, fun k => ?_, by rw [e]; exact ih.held, by rw [e]; exact ih.cell⟩
    by_cases hk : k = s.cur
    · subst hk
      exact spot_enters hb.mine
    · rcases hb.others k hk with h | ⟨h1, h2, h3⟩
      · exact .out h
      · rw [h1, h2, h3]
        have := ih.spots k
        simp only [hk, decide_false] at this
        exact this.idle

/-! ## C37 -/

/-- C37. At no time do two tasks hold the same facility, however the tasks are scheduled, and whatever else they do. -/
theorem C37_exclusive (hf : HasFacilities lv lo hi g r ix b) (hA : A < 2 ^ 64) (hu : Usage lv lo hi g r A b cfg n s H)
    {j k : Fin 5} (hj : H j = true) (hk : H k = true) : j = k := by
  have h := Usage.sound hf hA hu
  exact mark_inj (((h.held j).1 hj).symm.trans ((h.held k).1 hk))

/-- C37. The facility always shows who holds it: it has the mark of that task, and is 0 if there is none. -/
theorem C37_marked (hf : HasFacilities lv lo hi g r ix b) (hA : A < 2 ^ 64) (hu : Usage lv lo hi g r A b cfg n s H) :
    (∀ k, H k = true ↔ s.ds.cellAt A = mark k) ∧ (s.ds.cellAt A = 0 ↔ ∀ k, H k = false) := by
  have h := Usage.sound hf hA hu
  refine ⟨h.held, fun h0 k => ?_, fun hn => h.cell.resolve_right ?_⟩
  · exact Bool.eq_false_iff.2 fun hk => mark_ne k (((h.held k).1 hk).symm.trans h0)
  · rintro ⟨k, hk⟩
    exact absurd ((h.held k).2 hk) (by simp [hn k])

/-- C37. What another task does in `get` or `release` does not take the facility away from the task that holds it. -/
theorem C37_kept (hf : HasFacilities lv lo hi g r ix b) (hA : A < 2 ^ 64) (hu : Usage lv lo hi g r A b cfg n s H)
    {k : Fin 5} (hk : s.ds.cellAt A = mark k) (hc : s.cur ≠ k) (hn : ¬Elsewhere g r (place s s.cur))
    (hs : step cfg (n + 1) s = .ok (true, t)) : t.ds.cellAt A = mark k := by
  have h := Usage.sound hf hA hu
  have h' := Usage.sound hf hA (hu.inside hn hs)
  refine (h'.held k).1 ?_
  simp only [holders, hc.symm, false_and, if_false]
  exact (h.held k).2 hk

/-! ### The words on their own -/

section
variable {x : Cell} {l : List Cell}

theorem Spec.HasFacilities.loaded (h : HasFacilities lv lo hi g r ix s) : Loaded s.refs lv s.wl lo hi s.cur s.ds s :=
  ⟨rfl, rfl, rfl, fun _ _ _ => rfl, h.words, fun _ w hw => ⟨w, hw, rfl, rfl⟩⟩

theorem Spec.HasFacilities.calls (h : HasFacilities lv lo hi g r ix s) {name : String} {p : Nat → Stmt} {a : Nat} {l' : List Cell} {m' : DataSpace}
    (hw : ∃ w, s.wl.words[ix name]? = some w ∧ w.action = .core .nest ∧ w.dfa = a) (h1 : lo ≤ a)
    (h2 : (Stmt.seq (p a) .exit).next a ≤ hi) (hat : (Stmt.seq (p a) .exit).At s.refs lv s.ds a)
    (hd : data s = l) (hl : l.length ≤ capacity) (hr : (ret s).length < capacity) (hl' : l'.length ≤ capacity)
    (hb : ∀ z, Going cfg n s.refs lv s.wl lo hi s.cur s.ds (p a) (shape s l (z :: ret s) s.ds) (shape s l' (z :: ret s) m')) :
    Acts cfg (n + 1) (ix name) s (leaving s l' m') := by
  obtain ⟨w, hw1, hw2, rfl⟩ := hw
  rw [leaving_eq]
  have := calling_colon h.region hw1 hw2 h1 h2 hat hl hr hl' hb
  rw [← hd, shape_self] at this
  exact (this h.loaded).1

/-- A step made by a word with a stack effect. -/
local macro "effect'" j:num : tactic => `(tactic| (refine Going.seq (Going.doing (by assumption)
  (doing_effect $j rfl (HasFacilities.uses (by assumption) _ (by decide)) rfl ?_ ?_ ?_)) ?_; len; len; len; try dsimp only))

/-- C37. `get` marks a free facility with the number of the task, and changes nothing else. -/
theorem C37_get (h : HasFacilities lv lo hi g r ix s) (hd : data s = x :: l) (hl : l.length + 2 ≤ capacity)
    (hr : (ret s).length < capacity) (h1 : s.ds.start < x.toNat) (h2 : x.toNat + 8 ≤ s.ds.limit)
    (h3 : x.toNat + 8 ≤ lo ∨ hi ≤ x.toNat) (hz : s.ds.cellAt x.toNat = 0) :
    ∃ m, Acts cfg (n + 1) (ix "get") s (leaving s l m) ∧ WrittenIn x.toNat 8 s.ds m ∧ m.cellAt x.toNat = mark s.cur := by
  have hc : capacity = 64 := rfl
  have hg := h.region
  refine ⟨s.ds.setCell x.toNat (mark s.cur), ?_, ⟨rfl, rfl, rfl, fun q hq => DataSpace.setCell_bytes_out (by omega)⟩,
    DataSpace.cellAt_setCell _ _ _⟩
  refine h.calls (p := (getCode ix).place) h.getWord h.lower.1 (by have := h.upper.1; simpa [getCode, code, Stmt.all, Part.code, Stmt.place, Stmt.next] using this) h.getAt hd (by len) hr (by len) fun z => ?_
  simp only [getCode, code, Stmt.all, List.map, Part.code, Stmt.place]
  refine .seq (t := shape s (x :: l) (z :: ret s) s.ds) (.whileEnd hg (by len) (by len) ?_) ?_
  · effect' 1
    refine .seq (.doing hg (doing_fetch hg (h.uses _ (by decide)) (by len) (by len) h1 h2)) ?_
    rw [hz]
    exact .skip
  · refine .seq (.doing hg (doing_me (h.uses _ (by decide)) (by len) (by len))) ?_
    effect' 3
    refine .seq (.doing hg (doing_store hg (h.uses _ (by decide)) (by len) (by len) h1 h2 h3)) ?_
    exact .skip

/-- C37. `release` frees a facility that the task holds, and changes nothing else. -/
theorem C37_release (h : HasFacilities lv lo hi g r ix s) (hd : data s = x :: l) (hl : l.length + 3 ≤ capacity)
    (hr : (ret s).length < capacity) (h1 : s.ds.start < x.toNat) (h2 : x.toNat + 8 ≤ s.ds.limit)
    (h3 : x.toNat + 8 ≤ lo ∨ hi ≤ x.toNat) (hz : s.ds.cellAt x.toNat = mark s.cur) :
    ∃ m, Acts cfg (n + 1) (ix "release") s (leaving s l m) ∧ WrittenIn x.toNat 8 s.ds m ∧ m.cellAt x.toNat = 0 := by
  have hc : capacity = 64 := rfl
  have hg := h.region
  refine ⟨s.ds.setCell x.toNat 0, ?_, ⟨rfl, rfl, rfl, fun q hq => DataSpace.setCell_bytes_out (by omega)⟩,
    DataSpace.cellAt_setCell _ _ _⟩
  refine h.calls (p := (releaseCode ix).place) h.releaseWord h.lower.2 (by have := h.upper.2; simpa [releaseCode, code, Stmt.all, Part.code, Stmt.place, Stmt.next] using this) h.releaseAt hd (by len) hr (by len) fun z => ?_
  simp only [releaseCode, code, Stmt.all, List.map, Part.code, Stmt.place]
  effect' 1
  refine .seq (.doing hg (doing_fetch hg (h.uses _ (by decide)) (by len) (by len) h1 h2)) ?_
  refine .seq (.doing hg (doing_me (h.uses _ (by decide)) (by len) (by len))) ?_
  effect' 23
  refine .seq (.elseTrue hg (by len) (by len) (truth_ne hz) ?_) .skip
  refine .seq (.lit hg (by len) (by len)) ?_
  effect' 3
  exact .seq (.doing hg (doing_store hg (h.uses _ (by decide)) (by len) (by len) h1 h2 h3)) .skip

/-- C37. `release` of a facility that the task does not hold changes nothing, except that it takes the address. -/
theorem C37_release_other (h : HasFacilities lv lo hi g r ix s) (hd : data s = x :: l) (hl : l.length + 3 ≤ capacity)
    (hr : (ret s).length < capacity) (h1 : s.ds.start < x.toNat) (h2 : x.toNat + 8 ≤ s.ds.limit)
    (hz : s.ds.cellAt x.toNat ≠ mark s.cur) :
    Acts cfg (n + 1) (ix "release") s (setData s l) := by
  have hc : capacity = 64 := rfl
  have hg := h.region
  refine h.calls (p := (releaseCode ix).place) h.releaseWord h.lower.2 (by have := h.upper.2; simpa [releaseCode, code, Stmt.all, Part.code, Stmt.place, Stmt.next] using this) h.releaseAt hd (by len) hr (by len) fun z => ?_
  simp only [releaseCode, code, Stmt.all, List.map, Part.code, Stmt.place]
  effect' 1
  refine .seq (.doing hg (doing_fetch hg (h.uses _ (by decide)) (by len) (by len) h1 h2)) ?_
  refine .seq (.doing hg (doing_me (h.uses _ (by decide)) (by len) (by len))) ?_
  effect' 23
  rw [truth_zero hz]
  refine .seq (.elseFalse hg (by len) (by len) ?_) .skip
  effect' 2
  exact .skip

/-- C37. A task that calls `get` while nobody holds the facility gets it. -/
theorem C37_takes (hf : HasFacilities lv lo hi g r ix b) (hA : A < 2 ^ 64) (hu : Usage lv lo hi g r A b cfg n s H)
    (hp : place s s.cur = g) (hx : dataOf s s.cur = x :: l) (hxA : x.toNat = A) (hn : ∀ k, H k = false) :
    ∃ t H', Usage lv lo hi g r A b cfg n t H' ∧ H' s.cur = true ∧ t.cur = s.cur := by
  have hc : capacity = 64 := rfl
  have S := Usage.sound hf hA hu
  have hz : s.ds.cellAt A = 0 := (C37_marked hf hA hu).2.2 hn
  have hsp := S.spots s.cur
  have hL := S.loaded
  have hg := hf.region
  obtain ⟨c0, c8, c16, c24, c32, c40, c48, c56, c64, c72, c80⟩ := hf.getCells
  have lg := hf.lower.1; have ug := hf.upper.1; have hap := hf.apart
  have k1 : s.ds.start = b.ds.start := hL.start
  have k2 : s.ds.limit = b.ds.limit := by simp only [DataSpace.limit]; rw [hL.start, hL.cap]
  have uses : ∀ name, name ∈ facilityUses → Builtin b.wl (ix name) name := hf.uses
  have inn : ∀ {i : Nat}, i < 88 → ¬Elsewhere g r (g + i) := fun hi h => h.1 ⟨by omega, by omega⟩
  obtain ⟨z, rs, hr, q⟩ : ∃ z rs, retOf s s.cur = z :: rs ∧ Args lo hi g r A b.ds x l z rs := by
    simp only [decide_true] at hsp
    generalize dataOf s s.cur = dd at *
    generalize retOf s s.cur = rr at *
    generalize place s s.cur = pp at *
    cases hsp with
    | out h => exact absurd h (by rw [hp]; exact inn (i := 0) (by omega))
    | g0 q => cases hx; exact ⟨_, _, rfl, q⟩
    | _ => exfalso; omega
  have := q.room; have := q.rroom; have := q.fac.lower; have := q.fac.upper; have := q.fac.noCode
  have go : ∀ {u v : VM} {p p' : Nat} {l' r' : List Cell} {m : DataSpace}, Usage lv lo hi g r A b cfg n u H →
      step cfg (n + 1) u = .ok (true, v) → Moved u v p' l' r' m → place u u.cur = g + p → p < 72 →
      Usage lv lo hi g r A b cfg n v H := by
    intro u v p p' l' r' m h1 h2 h3 h4 h5
    have := h1.inside (by rw [h4]; exact inn (by omega)) h2
    rwa [holders_quiet (by omega) (by omega)] at this
  obtain ⟨t1, a1, a2, a3⟩ := doing_moved (cfg := cfg) (n := n) hL hg hp (by omega) (by omega) c0 hx hr (by len) (by len)
      (doing_effect 1 rfl (uses "dup" (by decide)) rfl (by len) (by len) (by len))
  have u1 := go hu a1 a2 (p := 0) hp (by omega)
  have d1 : data t1 = x :: x :: l := by rw [data, VM.task, a2.cur]; exact a2.data
  have r1 : ret t1 = z :: rs := by rw [ret, VM.task, a2.cur]; exact a2.ret
  have p1 : pc t1 = g + 8 := by rw [pc, VM.task, a2.cur]; exact a2.place
  obtain ⟨t2, b1, b2, b3⟩ := doing_moved (cfg := cfg) (n := n) a3 hg p1 (by omega) (by omega) c8 d1 r1 (by len) (by len)
      (doing_fetch hg (uses "@" (by decide)) (by len) (by len) (by rw [a2.ds]; omega) (by rw [a2.ds]; omega))
  rw [a2.ds, hxA, hz] at b2
  have u2 := go u1 b1 b2 (p := 8) p1 (by omega)
  have d2 : data t2 = 0 :: x :: l := by rw [data, VM.task, b2.cur]; exact b2.data
  have r2 : ret t2 = z :: rs := by rw [ret, VM.task, b2.cur]; exact b2.ret
  have p2 : pc t2 = g + 16 := by rw [pc, VM.task, b2.cur]; exact b2.place
  obtain ⟨t3, e1, e2, e3⟩ := zero_moved (cfg := cfg) (n := n) b3 hg p2 (by omega) (by omega) c16 c24 d2 r2 (by len) (by len)
  have u3 := go u2 e1 e2 (p := 16) p2 (by omega)
  have d3 : data t3 = x :: l := by rw [data, VM.task, e2.cur]; exact e2.data
  have r3 : ret t3 = z :: rs := by rw [ret, VM.task, e2.cur]; exact e2.ret
  have p3 : pc t3 = g + 56 := by rw [pc, VM.task, e2.cur]; exact e2.place
  obtain ⟨t4, f1, f2, f3⟩ := doing_moved (cfg := cfg) (n := n) e3 hg p3 (by omega) (by omega) c56 d3 r3 (by len) (by len)
      (doing_me (uses "me" (by decide)) (by len) (by len))
  have u4 := go u3 f1 f2 (p := 56) p3 (by omega)
  have d4 : data t4 = mark t3.cur :: x :: l := by rw [data, VM.task, f2.cur]; exact f2.data
  have r4 : ret t4 = z :: rs := by rw [ret, VM.task, f2.cur]; exact f2.ret
  have p4 : pc t4 = g + 64 := by rw [pc, VM.task, f2.cur]; exact f2.place
  obtain ⟨t5, i1, i2, i3⟩ := doing_moved (cfg := cfg) (n := n) f3 hg p4 (by omega) (by omega) c64 d4 r4 (by len) (by len)
      (doing_effect 3 rfl (uses "swap" (by decide)) rfl (by len) (by len) (by len))
  have u5 := go u4 i1 i2 (p := 64) p4 (by omega)
  have d5 : data t5 = x :: mark t3.cur :: l := by rw [data, VM.task, i2.cur]; exact i2.data
  have r5 : ret t5 = z :: rs := by rw [ret, VM.task, i2.cur]; exact i2.ret
  have p5 : pc t5 = g + 72 := by rw [pc, VM.task, i2.cur]; exact i2.place
  have m5 : t5.ds = s.ds := by rw [i2.ds, f2.ds, e2.ds, b2.ds]
  obtain ⟨t6, j1, j2, j3⟩ := doing_moved (cfg := cfg) (n := n) i3 hg p5 (by omega) (by omega) c72 d5 r5 (by len) (by len)
      (doing_store hg (uses "!" (by decide)) (by len) (by len) (by rw [m5]; omega) (by rw [m5]; omega) (by omega))
  have c5 : t5.cur = s.cur := by rw [i2.cur, f2.cur, e2.cur, b2.cur, a2.cur]
  have p5' : place t5 t5.cur = g + 72 := p5
  refine ⟨t6, _, u5.inside (by rw [p5']; exact inn (by omega)) j1, ?_, by rw [j2.cur, c5]⟩
  have d5' : dataOf t5 t5.cur = x :: mark t3.cur :: l := d5
  rw [← c5]
  simp only [holders, p5', d5']
  simp [← hxA]

end

/-! ### Non-vacuity -/

/-- What is checked of the image. -/
def facilityB (s : VM) : Bool :=
  runtimeB s.refs (imageIx "leave") s.wl && usesB s.wl imageIx facilityUses &&
  codedB s.refs (imageIx "leave") s.wl 9536 9752 s.ds imageIx [("get", getCode imageIx), ("release", releaseCode imageIx)] &&
  (match s.wl.words[imageIx "get"]? with
    | some w => decide (w.dfa = 9536)
    | none => false) &&
  (match s.wl.words[imageIx "release"]? with
    | some w => decide (w.dfa = 9640)
    | none => false) && decide (s.ds.start = 1024) && decide (s.ds.cap = 65536)

set_option maxRecDepth 100000 in
theorem image_facilityB : facilityB image = true := by decide +kernel

theorem facilities_of {s : VM} (h : facilityB s = true) : HasFacilities (imageIx "leave") 9536 9752 9536 9640 imageIx s := by
  simp only [facilityB, Bool.and_eq_true, decide_eq_true_eq] at h
  obtain ⟨⟨⟨⟨⟨⟨h1, h2⟩, h3⟩, h4⟩, h5⟩, h6⟩, h7⟩ := h
  have hc := codedB_coded h3
  obtain ⟨w, w1, w2, -, -, w3⟩ := hc _ (List.mem_of_getElem? (i := 0) rfl)
  obtain ⟨v, v1, v2, -, -, v3⟩ := hc _ (List.mem_of_getElem? (i := 1) rfl)
  dsimp only at w1 w3 v1 v3
  rw [w1] at h4
  rw [v1] at h5
  simp only [decide_eq_true_eq] at h4 h5
  rw [h4] at w3
  rw [h5] at v3
  exact ⟨runtimeB_runtime h1, ⟨by omega, by omega, by omega⟩, usesB_uses h2, by decide, by decide, by decide,
    ⟨w, w1, w2, h4⟩, ⟨v, v1, v2, h5⟩, w3, v3⟩

/-- The words of the image are where they are said to be. -/
theorem image_facilities : HasFacilities (imageIx "leave") 9536 9752 9536 9640 imageIx image := facilities_of image_facilityB

/-- Non-vacuity of C37_get and C37_release_other: task 0 gets a free facility, and `release` of a free facility does
nothing. -/
example (cfg : Cfg) (n : Nat) :
    (∃ m, Acts cfg (n + 1) (imageIx "get") (setData image [20000]) (leaving (setData image [20000]) [] m) ∧ m.cellAt 20000 = 1) ∧
    Acts cfg (n + 1) (imageIx "release") (setData image [20000]) (setData (setData image [20000]) []) := by
  have hf : HasFacilities (imageIx "leave") 9536 9752 9536 9640 imageIx (setData image [20000]) := facilities_of image_facilityB
  obtain ⟨-, h2, h3⟩ := image_holding (l := [20000]) (by decide)
  have e0 : image.ds.cellAt 20000 = 0 := by decide +kernel
  have ha : (20000 : Cell).toNat = 20000 := rfl
  constructor
  · obtain ⟨m, m1, -, m3⟩ := C37_get (cfg := cfg) (n := n) hf h2 (by decide) (by rw [h3]; decide)
      (show image.ds.start < (20000 : Cell).toNat by decide) (show (20000 : Cell).toNat + 8 ≤ image.ds.limit by decide)
      (.inr (by decide)) e0
    exact ⟨m, m1, m3⟩
  · exact C37_release_other hf h2 (by decide) (by rw [h3]; decide) (show image.ds.start < (20000 : Cell).toNat by decide)
      (show (20000 : Cell).toNat + 8 ≤ image.ds.limit by decide) (by rw [ha]; show image.ds.cellAt 20000 ≠ _; rw [e0]; exact (mark_ne _).symm)

/-- The image where task 0 holds the facility at 20000. -/
def heldImage : VM := setData { image with ds := image.ds.setCell 20000 1 } [20000]

set_option maxRecDepth 100000 in
/-- Non-vacuity of C37_release. -/
example (cfg : Cfg) (n : Nat) :
    ∃ m, Acts cfg (n + 1) (imageIx "release") heldImage (leaving heldImage [] m) ∧ m.cellAt 20000 = 0 := by
  have hf : HasFacilities (imageIx "leave") 9536 9752 9536 9640 imageIx heldImage := facilities_of (by decide +kernel)
  have h2 : data heldImage = [20000] := data_setData (by decide)
  have h3 : ret heldImage = [] := by rw [heldImage, setData_ret]; decide +kernel
  obtain ⟨m, m1, -, m3⟩ := C37_release (cfg := cfg) (n := n) hf h2 (by decide) (by rw [h3]; decide)
      (show image.ds.start < (20000 : Cell).toNat by decide) (show (20000 : Cell).toNat + 8 ≤ image.ds.limit by decide)
      (.inr (by decide)) (DataSpace.cellAt_setCell _ _ _)
  exact ⟨m, m1, m3⟩

/-- The image where task 0 is about to run `get` for the facility at 20000. -/
def getImage : VM := (setRet (setData image [20000]) [0]).at 9536 0

/-- Non-vacuity of C37_takes, and with it of the theorems about all times: there is a time when task 0 holds the
facility. -/
example (cfg : Cfg) (n : Nat) :
    ∃ t H, Usage (imageIx "leave") 9536 9752 9536 9640 20000 image cfg n t H ∧ H 0 = true := by
  have d0 : dataOf getImage 0 = [20000] := by decide +kernel
  have r0 : retOf getImage 0 = [0] := by decide +kernel
  have p0 : place getImage 0 = 9536 := by decide +kernel
  have pk : ∀ k : Fin 5, k ≠ 0 → place getImage k = 0 := by decide +kernel
  have hu : Usage (imageIx "leave") 9536 9752 9536 9640 20000 image cfg n getImage fun _ => false := by
    refine .start ?_ (fun k => ?_) (show image.ds.cellAt 20000 = 0 by decide +kernel)
    · exact image_facilities.loaded.congr rfl rfl rfl
    · by_cases hk : k = 0
      · subst hk
        refine .inr ⟨.inl p0, ⟨_, _, d0, ⟨show image.ds.start < (20000 : Cell).toNat by decide,
          show (20000 : Cell).toNat + 8 ≤ image.ds.limit by decide, .inr (by decide), .inl rfl⟩, by decide⟩,
          _, _, r0, by simp [Elsewhere], by decide⟩
      · exact .inl (by rw [pk k hk]; simp [Elsewhere])
  obtain ⟨t, H, h1, h2, -⟩ := C37_takes image_facilities (by decide) hu p0 d0 rfl fun _ => rfl
  exact ⟨t, H, h1, h2⟩

end Verif
