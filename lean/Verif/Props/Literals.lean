import Verif.Lemmas.Literals
import Verif.Props.Control

/-!
# Literals

Theorems for property C29.
-/

namespace Verif
open Spec Stack

/-- C29. `: name ... ;` with any numbers, floats and strings between, and then the name: on the stacks are exactly the values
that were written, and for every string its length and the address where its bytes are. The definition may be at any
address and the values may be any. -/
theorem C29_literals {cfg : Cfg} {depth lv : Nat} {s : VM} (hL : Listening s) (hC : Compiler s.refs lv s.wl)
    (hsz : s.wl.words.length < 2 ^ 64) (h1 : 1 ≤ s.wl.words.length) (hfl : s.refs.flit ≠ 0)
    {pre text name tok rest rest' : List Char} {items : List Item} (hin : Reading s.task pre text)
    (hdef : Definition cfg.fops s text name items rest) (hlit : ∀ it ∈ items, it.IsLiteral)
    (room : roundUp8 (s.ds.here + 8 + (utf8 (name.map lowerChar)).length) + itemsRoom items + 8 ≤ s.ds.limit)
    (hr : Reads rest tok rest') (hsame : SameName (utf8 (name.map lowerChar)) (utf8 tok))
    (hcells : (data s).length + cellsOf items ≤ capacity) (hfloats : (floats s).length + floatsOf items ≤ capacity)
    (hret : (ret s).length < capacity) :
    ∃ t, Leads cfg (depth + 2) s t ∧ Listening t ∧ Gives t.ds items (data s) (floats s) (data t) (floats t) := by
  generalize hdfa : roundUp8 (s.ds.here + 8 + (utf8 (name.map lowerChar)).length) = dfa at *
  have hitems := litStmt_items (R := s.refs) (lv := lv) hlit
  have hnext : (litStmt items).next dfa ≤ dfa + itemsRoom items := by
    have := next_room (R := s.refs) (lv := lv) (litStmt items) dfa
    rwa [hitems] at this
  obtain ⟨t, pre', e1, e2, e3, e4, e5, e6, e7, e8, e9, e10, e11, e12, e13, e14, e15, e16, e17, e18⟩ :=
    C24_compile (cfg := cfg) (depth := depth) (p := litStmt items) hL hC hsz h1 hfl hin (by rw [hitems]; exact hdef) hdfa.symm
      ⟨by rw [litStmt_calls]; simp, litStmt_leaves items, by rw [litStmt_height]; omega, by omega⟩
  obtain ⟨w, w1, w2, w3, w4⟩ := e9
  have hD := e18 s.ds.here (fun _ => none) (Nat.le_refl _) (fun _ _ h => by cases h)
  obtain ⟨w', q1, q2, q3, q4, q5⟩ := hD s.wl.words.length ((litStmt items).place dfa) (by rw [plus, if_pos rfl])
  have htd : t.ds.limit = s.ds.limit := by simp only [DataSpace.limit, e13, e14]
  have hn := e7 _ hsame
  obtain ⟨hpos, hbytes⟩ : ∃ n, n + byteLen rest' = byteLen (pre' ++ rest) := by
    obtain ⟨bs, rfl, -⟩ := hr
    exact ⟨byteLen (pre' ++ bs ++ tok), by rw [← byteLen_append]; simp⟩
  have hle := Stmt.le_next (litStmt items) w'.dfa
  obtain ⟨v, hv⟩ : ∃ v, v = received t tok hpos := ⟨_, rfl⟩
  have hdv : data v = data s := by rw [hv, received_data, e15]
  have hrv : ret v = ret s := by rw [hv, received_ret, e16]
  have hfv : floats v = floats s := by rw [hv, ← e17]; simp only [floats, received_task]
  have hd2 : v.ds = t.ds := by rw [hv]; rfl
  simp only [Stmt.next, Stmt.place_next] at q4
  have hin' := e2.space.inside
  have hst : t.ds.start ≤ s.ds.here := by rw [e13]; simp [DataSpace.here]
  have htl : t.ds.here ≤ t.ds.limit := by simp only [DataSpace.here, DataSpace.limit]; omega
  obtain ⟨ys, zs, g1, g2, g3, g4⟩ := lits_sem (W := Basic t.wl s.ds.here t.ds.here) hlit hcells hfloats q5.1 (by omega) (by omega)
  simp only [capacity] at *
  obtain ⟨u, pre2, r1, r2, r3, r4, r5⟩ := C24_run (cfg := cfg) (depth := depth + 1) (lo := s.ds.here) e2 e4 hst
    (by rw [e5]; exact hD) e3 hr hn w1 w4 (m := 1) (t := setFloats (setData v ys) zs) hbytes (by
      rw [← hv]
      refine .inr ⟨_, by rw [plus, if_pos rfl], by rw [hrv]; exact hret, fun x => ?_⟩
      obtain ⟨u, k1, k2⟩ := g4 (setRet v (x :: ret v)) (by rw [setRet_data, hdv]) (by rw [← hfv]; simp [floats, setRet])
      refine ⟨u, ret v, .seq k1 .exit, ?_, ?_⟩
      · rw [k2.ret]
        have : ret (setFloats (setData (setRet v (x :: ret v)) ys) zs) = ret (setRet v (x :: ret v)) := by
          simp [ret, setFloats, setData]
        rw [this, ret_setRet (by rw [hrv]; simp; omega)]
      · refine .symm ((k2.setRet (by rw [hrv]; omega)).trans ?_)
        rw [setRet_setFloats, setRet_setData]
        refine .setFloats (.setData ?_ (by omega)) (by omega)
        have := alike_ret v (l := x :: ret v) (m := ret v) (by rw [hrv]; simp [capacity]; omega) (by rw [hrv]; omega)
        rwa [setRet_self] at this)
  have hds : u.ds = t.ds := by rw [r2.ds]; exact hd2
  refine ⟨u, e1.trans r1, r5 (e2.dict.congr (by rw [show (setFloats (setData v ys) zs).wl = v.wl from rfl, hv]; rfl) hd2), ?_⟩
  have hdu : data u = ys := by
    rw [show data u = _ from r2.data]
    have : data (setFloats (setData v ys) zs) = data (setData v ys) := by simp [data, setFloats]
    rw [this, data_setData (by omega)]
  have hfu : floats u = zs := by
    rw [show floats u = _ from r2.floats]
    exact floats_setFloats (by omega)
  rw [hds, hdu, hfu]
  exact g1

/-- Non-vacuity: on the machine as built, a definition with two numbers. -/
example : ∃ t, Leads demoCfg 5 (desk [7] ": c 0 0 ; C") t ∧ Listening t ∧ data t = [0, 0, 7] := by
  have hs := @desk_word [7] ": c 0 0 ; C"
  obtain ⟨c1, wc, c2, c3, c4, c5, c6⟩ := hs (List.mem_of_getElem? (i := 0) rfl)
  obtain ⟨s1, ws, s2, s3, s4, s5, s6⟩ := hs (List.mem_of_getElem? (i := 1) rfl)
  obtain ⟨n1, n2, n3, n4, n5, n6, n7, n8, n9⟩ := desk_numbers [7] ": c 0 0 ; C"
  have hL := desk_listening (l := [7]) (by simp) ": c 0 0 ; C"
  have hC := desk_compiler [7] ": c 0 0 ; C"
  have hR := desk_reading [7] (text := ": c 0 0 ; C") (by decide)
  have hdat := desk_data (l := [7]) (by simp) ": c 0 0 ; C"
  generalize desk [7] ": c 0 0 ; C" = s at *
  have hlim : s.ds.limit = 66560 := by simp only [DataSpace.limit, n4, n5]
  have hz : Spells demoCfg.fops s "0".toList (.lit 0) := .lit n9 (by rw [n8]; exact (integerValue_iff 10 (utf8 "0".toList) 0).mp (by decide +kernel))
  have hroom : roundUp8 (s.ds.here + 8 + (utf8 ("c".toList.map lowerChar)).length) + itemsRoom [.lit 0, .lit 0] + 8 ≤ s.ds.limit := by
    rw [hlim]
    have : (utf8 ("c".toList.map lowerChar)).length = 1 := by decide
    rw [this]
    simp only [roundUp8, itemsRoom, Item.room, List.map_cons, List.map_nil, List.sum_cons, List.sum_nil]
    omega
  obtain ⟨t, h1, h2, h3⟩ := C29_literals (cfg := demoCfg) (depth := 3) (items := [.lit 0, .lit 0]) (name := "c".toList) (rest := " C".toList)
    (tok := "C".toList) (rest' := []) hL hC (by omega) (by omega) n2 hR
    ⟨":".toList, ";".toList, " c 0 0 ; C".toList, " 0 0 ; C".toList, " ; C".toList, 16, 17, wc, ws,
      ⟨[], by decide, by decide, by decide, by decide, by decide⟩,
      ⟨[' '], by decide, by decide, by decide, by decide, by decide⟩,
      .token (bs := [' ']) (t := "0".toList) (text := " 0 ; C".toList) (by decide) (by decide) (by decide) (by decide) hz
        (.token (bs := [' ']) (t := "0".toList) (text := " ; C".toList) (by decide) (by decide) (by decide) (by decide) hz .done),
      ⟨[' '], by decide, by decide, by decide, by decide, by decide⟩, c1, c2, c3, c5, s1, s2, s3, s4⟩
    (by simp [Item.IsLiteral]) hroom ⟨[' '], by decide, by decide, by decide, by decide, by decide⟩
    ((sameName_iff _ _).mpr (by decide)) (by rw [hdat]; simp [cellsOf, capacity]) (by simp only [floatsOf]; exact hL.floats.depth) (by rw [n7]; simp [capacity])
  refine ⟨t, h1, h2, ?_⟩
  rw [hdat] at h3
  cases h3 with
  | lit h3 => cases h3 with
    | lit h3 => 
      generalize data t = l, floats t = f at h3
      cases h3; rfl

end Verif
