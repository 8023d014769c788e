import Verif.Lemmas.Defining
import Verif.Lemmas.Quoting

/-!
# What `marker` does
-/

namespace Verif
open Spec

variable {s t : VM} {pre bs tok more : List Char}

theorem markerLoop_run (c : Ctx) {d : DataSpace} (hd : SoundSpace d) : ∀ (l : List (Fin 64)) {s : VM} {vs : List Cell}, Extends d vs s.ds →
    RoomFor d (vs.length + l.length) →
    ∃ d', markerLoop c l s = .ok ((), { s with ds := d' }) ∧ Extends d (vs ++ l.map fun b => toCell (s.wl.tempBuckets b)) d'
  | [], s, vs, he, _ => ⟨s.ds, rfl, by rw [List.map_nil, List.append_nil]; exact he⟩
  | b :: l, s, vs, he, hr => by
    have hr' : RoomFor d (vs.length + 1) := by
      simp only [RoomFor, List.length_cons] at hr ⊢
      omega
    obtain ⟨d1, e1, e2⟩ := compileCell_run (c := c) (s := s) hd he hr' (toCell (s.wl.tempBuckets b))
    obtain ⟨d2, e3, e4⟩ := markerLoop_run c hd l (s := { s with ds := d1 }) e2 (by
      simp only [RoomFor, List.length_cons, List.length_append, List.length_nil] at hr ⊢
      omega)
    refine ⟨d2, ?_, ?_⟩
    · rw [markerLoop, M.bind_apply, getWl_apply]
      simp only
      rw [M.bind_ok e1]
      exact e3
    · rw [List.append_assoc] at e4
      exact e4

/-- `marker` when a name follows and there is room. -/
theorem marker_run (c : Ctx) (h : Next s pre bs tok more) (ht : tok ≠ []) (hd : Dict s) (hs : SoundSpace s.ds)
    (h1 : s.wl.words ≠ []) (hr : bodyOf s.ds (utf8 (tok.map lowerChar)) + 520 ≤ s.ds.limit) :
    ∃ t, marker c s = .ok ((), t) ∧ Defines s t pre bs tok (.core .unmark) (bodyOf s.ds (utf8 (tok.map lowerChar)) + 520) ∧
      ∀ w, t.wl.words[s.wl.words.length]? = some w → w.nfa = s.ds.here := by
  have hi : InSpace s := ⟨hs.small, hs.inside⟩
  let s0 : VM := { s with wl := { s.wl with tempBuckets := s.wl.buckets } }
  have hd0 : Dict s0 := ⟨hd.last, hd.low, hd.high, hd.hash, hd.link, hd.buckets, hd.apart, hd.top, hd.marks⟩
  have h0 : Next s0 pre bs tok more := by cases h; constructor <;> assumption
  obtain ⟨m, m1, hadd, m3, known, k1, k2⟩ := define_added c (.core .unmark) h0 ht hd0 hs (by
    show bodyOf s.ds _ ≤ s.ds.limit
    omega)
  have hb := bodyOf_le s.ds (utf8 (tok.map lowerChar))
  have hms : SoundSpace m.ds := by
    refine ⟨hadd.start ▸ hs.pos, hadd.start ▸ hs.aligned, ?_, ?_, hadd.len⟩
    · rw [hadd.start, hadd.cap]; exact hs.small
    · have := hs.vars
      have a1 : m.ds.start = s.ds.start := hadd.start
      have a2 : m.ds.here = bodyOf s.ds (utf8 (tok.map lowerChar)) := m3
      simp only [DataSpace.here] at *
      omega
  have hlim : m.ds.limit = s.ds.limit := by
    simp only [DataSpace.limit]; rw [hadd.start, hadd.cap]
  have m3' : m.ds.here = bodyOf s.ds (utf8 (tok.map lowerChar)) := m3
  obtain ⟨d1, e1, e2⟩ := compileCell_run (c := c) (s := m) (vs := []) hms (extends_nil _) (by
    simp only [RoomFor, List.length_nil]; omega) (toCell s.wl.last)
  obtain ⟨d2, e3, e4⟩ := markerLoop_run c hms (List.finRange 64) (s := { m with ds := d1 }) e2 (by
    simp only [RoomFor, List.length_cons, List.length_append, List.length_nil, List.length_finRange]; omega)
  rw [List.nil_append, List.singleton_append] at e4
  generalize hvs : (toCell s.wl.last :: (List.finRange 64).map fun b => toCell (m.wl.tempBuckets b)) = vs at e4
  have hlen : vs.length = 65 := by rw [← hvs]; simp
  have hbuck : m.wl.tempBuckets = s.wl.buckets := by rw [hadd.wl]; rfl
  have hh : d2.here = m.ds.here + 520 := by
    have a1 := e4.len
    have a2 := e4.start
    simp only [DataSpace.here]
    omega
  have hbel : ∀ x, x < m.ds.here → d2.bytes x = m.ds.bytes x := fun x hx => e4.rest x (.inl hx)
  have hcell : ∀ (i : Nat) (v : Cell), vs[i]? = some v → d2.cellAt (m.ds.here + 8 * i) = v := e4.cells
  let t : VM := { m with ds := d2 }
  have hres : reserve (Word.new (.core .unmark) .word s.ds.here m.ds.here) = 520 := if_pos rfl
  have hpos : 1 ≤ s.wl.words.length := List.length_pos_iff.2 h1
  have hed : Edit .same s0 t := by
    refine hadd.edit (t := t) (w := Word.new (.core .unmark) .word s.ds.here m.ds.here) hi e4.start (by
      show m.wl = _
      rw [hadd.wl]) rfl rfl hbel (by
        rw [hres]
        show _ ≤ d2.here
        omega) rfl fun _ => ⟨hpos, ?_, fun b => ?_⟩
    · show d2.cellAt m.ds.here = toCell (s.wl.words.length - 1)
      rw [← hd.last]
      exact hcell 0 _ (by rw [← hvs]; rfl)
    · show d2.cellAt (m.ds.here + 8 * (b.val + 1)) = toCell (s.wl.buckets b)
      refine hcell (b.val + 1) _ ?_
      rw [← hvs, List.getElem?_cons_succ, hbuck]
      simp
  have hn := hadd.newest hd0 hi h1 (t := t) rfl hbel (by show _ ≤ d2.here; omega)
  refine ⟨t, ?_, ⟨⟨known, k1, ?_⟩, ⟨_, by show m.wl.words = _; rw [hadd.wl]; rfl, rfl, m3', rfl, rfl, rfl⟩, by show m.wl.last = _; rw [hadd.wl]; rfl,
    hn.1, hn.2, hed.dict hd0, ?_, ?_, ?_, ?_, ?_⟩, ?_⟩
  · rw [marker, M.bind_apply, getWl_apply]
    simp only
    rw [M.bind_apply, modVM_apply]
    show (do define c (.core .unmark); compileCell c (toCell s.wl.last); markerLoop c (List.finRange 64) : M Unit) s0 = _
    rw [M.bind_ok m1, M.bind_ok e1]
    exact e3
  · conv => lhs; simp only [t]; rw [k2]
    rfl
  · refine ⟨e4.start ▸ hms.pos, e4.start ▸ hms.aligned, ?_, ?_, ?_⟩
    · show d2.start + d2.cap < _
      rw [e4.start, e4.cap]; exact hms.small
    · show 16 ≤ d2.len
      rw [e4.len]
      have := hms.vars
      omega
    · show d2.len ≤ d2.cap
      have a1 := e4.start
      have a2 := e4.cap
      simp only [DataSpace.here, DataSpace.limit] at *
      omega
  · exact e4.start.trans hadd.start
  · exact e4.cap.trans hadd.cap
  · show d2.here = _
    omega
  · intro x hx
    have hx' : x < m.ds.here := by omega
    show d2.bytes x = _
    rw [hbel x hx']
    exact hadd.below x hx
  · intro w hw
    replace hw : m.wl.words[s.wl.words.length]? = some w := hw
    rw [hadd.wl] at hw
    replace hw := (List.getElem?_concat_length ..).symm.trans hw
    cases hw
    rfl

theorem unmarkLoop_run (c : Ctx) : ∀ (n : Nat) {dfa : Nat} (i : Fin 64) {s : VM}, s.ds.start ≤ dfa → dfa + 8 * (n + 1) ≤ s.ds.limit →
    s.ds.limit < 2 ^ 63 → ∃ f, unmarkLoop c n dfa i s = .ok ((), withBuckets s f)
  | 0, _, _, s, _, _, _ => ⟨s.wl.buckets, rfl⟩
  | n + 1, dfa, i, s, h1, h2, h3 => by
    have e1 : liftE (uadd c.oc dfa 8) s = .ok (dfa + 8, s) := by
      simp only [liftE, uadd_ok (oc := c.oc) (a := dfa) (b := 8) (by simp only [usizeMod]; omega)]
    have e2 : dsRd (fun d => d.getCell (dfa + 8)) s = .ok (s.ds.cellAt (dfa + 8), s) := by
      have : s.ds.valid (dfa + 8) 8 := by
        simp only [DataSpace.valid, DataSpace.limit] at *
        omega
      simp only [dsRd, DataSpace.getCell, if_pos this]
    obtain ⟨f, hf⟩ := unmarkLoop_run c n (dfa := dfa + 8) (i + 1)
      (s := withBuckets s fun j => if j = i then (s.ds.cellAt (dfa + 8)).toNat else s.wl.buckets j) (by show s.ds.start ≤ _; omega)
      (by show _ ≤ s.ds.limit; omega) h3
    refine ⟨f, ?_⟩
    rw [unmarkLoop, M.bind_ok e1, M.bind_ok e2, M.bind_apply, modVM_apply]
    exact hf

/-- `unmark` with another loop. -/
def unmarkBy (c : Ctx) (L : Nat → Fin 64 → M Unit) : M Unit := do
  let st ← getSt
  let w ← wordAt st.wp
  let x ← dsRd fun d => d.getCell w.dfa
  modVM fun s => { s with wl := { s.wl with last := x.toNat } }
  L w.dfa 0
  dsOp fun d => .ok (d.truncate w.nfa)
  let wl ← getWl
  let words := wl.words.take st.wp
  let last ← liftE (usub c.oc words.length 1)
  modVM fun s => { s with wl := { s.wl with words := words, last := last } }

theorem unmarkBy_tail (c : Ctx) (nfa wp : Nat) {u : VM} (h1 : 1 ≤ (u.wl.words.take wp).length) :
    (do
      dsOp fun d => .ok (d.truncate nfa)
      let wl ← getWl
      let words := wl.words.take wp
      let last ← liftE (usub c.oc words.length 1)
      modVM fun s => { s with wl := { s.wl with words := words, last := last } } : M Unit) u =
    .ok ((), { u with
      ds := u.ds.truncate nfa
      wl := { u.wl with words := u.wl.words.take wp, last := (u.wl.words.take wp).length - 1 } }) := by
  rw [M.bind_apply, dsOp_apply]
  simp only
  rw [M.bind_apply, getWl_apply]
  simp only
  have e3 : usub c.oc (u.wl.words.take wp).length 1 = .ok ((u.wl.words.take wp).length - 1) := usub_ok h1
  rw [M.bind_apply]
  simp only [liftE, e3]
  rw [modVM_apply]

theorem unmarkBy_run (c : Ctx) (L : Nat → Fin 64 → M Unit) {w : Word} {f : Fin 64 → Nat} {x : Cell}
    (hw : s.wl.words[s.task.st.wp]? = some w)
    (hwp : 1 ≤ s.task.st.wp) (e2 : dsRd (fun d => d.getCell w.dfa) s = .ok (x, s))
    (hf : L w.dfa 0 { s with wl := { s.wl with last := x.toNat } } =
      .ok ((), withBuckets { s with wl := { s.wl with last := x.toNat } } f)) :
    unmarkBy c L s = .ok ((), { s with
      ds := s.ds.truncate w.nfa
      wl := { s.wl with buckets := f, words := s.wl.words.take s.task.st.wp, last := (s.wl.words.take s.task.st.wp).length - 1 } }) := by
  have hlen := (List.getElem?_eq_some_iff.1 hw).1
  rw [unmarkBy, M.bind_apply, getSt_apply]
  simp only
  rw [M.bind_ok (wordAt_ok hw), M.bind_ok e2, M.bind_apply, modVM_apply]
  simp only
  rw [M.bind_ok hf]
  exact unmarkBy_tail c w.nfa s.task.st.wp (u := withBuckets { s with wl := { s.wl with last := x.toNat } } f)
    (by rw [List.length_take]; show 1 ≤ min _ s.wl.words.length; omega)

theorem unmark_by (c : Ctx) : unmark c = unmarkBy c (unmarkLoop c 64) := by
  unfold unmark unmarkBy
  generalize unmarkLoop c 64 = L
  rfl

/-- A marker does its work. -/
theorem unmark_run (c : Ctx) (h : Dict s) (hs : SoundSpace s.ds) {w : Word} (hw : s.wl.words[s.task.st.wp]? = some w)
    (ha : w.action = .core .unmark) :
    ∃ t, unmark c s = .ok ((), t) ∧ Forgotten s.task.st.wp w s t ∧ ∃ d wl, t = { s with ds := d, wl := wl } ∧ d.cap = s.ds.cap := by
  have hi : InSpace s := ⟨hs.small, hs.inside⟩
  obtain ⟨i1, i2, i3, i4, i5⟩ := h.inside hi hw
  have hr : reserve w = 520 := if_pos ha
  have hm := (h.marks _ w hw ha).1
  have hlim : s.ds.limit < 2 ^ 63 := hs.small
  have hhere : s.ds.here ≤ s.ds.limit := i4
  have e2 : dsRd (fun d => d.getCell w.dfa) s = .ok (s.ds.cellAt w.dfa, s) := by
    have : s.ds.valid w.dfa 8 := by
      simp only [DataSpace.valid, DataSpace.limit] at *
      omega
    simp only [dsRd, DataSpace.getCell, if_pos this]
  obtain ⟨f, hf⟩ := unmarkLoop_run c 64 (dfa := w.dfa) 0 (s := { s with wl := { s.wl with last := (s.ds.cellAt w.dfa).toNat } })
    (by show s.ds.start ≤ _; omega) (by show _ ≤ s.ds.limit; omega) hlim
  have t1 := unmarkBy_run c (unmarkLoop c 64) hw hm e2 hf
  rw [← unmark_by] at t1
  refine ⟨_, t1, unmark_inv h hi hw ha t1, _, _, rfl, ?_⟩
  unfold DataSpace.truncate DataSpace.setHere
  split <;> rfl

end Verif
