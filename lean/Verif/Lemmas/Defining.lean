import Verif.Spec.Defining
import Verif.Lemmas.Quoting
import Verif.Lemmas.Define
import Verif.Lemmas.Orderly
import Verif.Lemmas.Compile

/-!
# Words that define words
-/

namespace Verif
open Spec Stack

variable {c : Ctx} {s t : VM} {pre bs tok more : List Char}

/-- Names after a word was added that is not hidden. -/
theorem Added.newest {p : Prim} {name : List Byte} {m : VM} (h : Added p name s m) (hd : Dict s) (hi : InSpace s)
    (h1 : s.wl.words ≠ []) (hw : t.wl = m.wl) (hb : ∀ x, x < m.ds.here → t.ds.bytes x = m.ds.bytes x)
    (hh : m.ds.here ≤ t.ds.here) :
    (∀ n, SameName name n → Newest t n (some s.wl.words.length)) ∧
      ∀ n r, ¬SameName name n → (Newest t n r ↔ Newest s n r) := by
  have hlen : 1 ≤ s.wl.words.length := List.length_pos_iff.2 h1
  have hws : t.wl.words = s.wl.words ++ [{ Word.new p .word s.ds.here m.ds.here with
      link := s.wl.buckets (Wordlist.bucketOf (Wordlist.hash name)), hash := Wordlist.hash name }] := by
    rw [hw, h.wl]; rfl
  have hnew : t.wl.words[s.wl.words.length]? = some { Word.new p .word s.ds.here m.ds.here with
      link := s.wl.buckets (Wordlist.bucketOf (Wordlist.hash name)), hash := Wordlist.hash name } := by
    rw [hws, List.getElem?_concat_length]
  have hold : ∀ j, j < s.wl.words.length → t.wl.words[j]? = s.wl.words[j]? := fun j hj => by
    rw [hws, List.getElem?_append_left hj]
  have hh0 := h.here
  obtain ⟨hl, hl'⟩ := length_utf hi h
  have hcell : t.ds.cellAt s.ds.here = toCell name.length := by
    rw [← h.count]
    exact cellAt_same fun x h1 h2 => hb x (by omega)
  have hname : ∀ w : Word, w.nfa = s.ds.here → nameIn t.ds w = name := by
    intro w e
    have e2 : (toCell name.length).toNat = name.length := by simp [toCell]; omega
    rw [nameIn, e, hcell, e2]
    conv => rhs; rw [← h.text]
    apply List.map_congr_left
    intro i hi
    exact hb _ (by have := List.mem_range.1 hi; omega)
  have hkeep : ∀ (j : Nat) u, s.wl.words[j]? = some u → nameIn t.ds u = nameIn s.ds u := fun j u hu =>
    (nameIn_same (d := s.ds) (d' := t.ds) (v := u) (w := u) rfl
      ((hd.intact (t := t) (by omega) (fun x hx => by rw [hb x (by omega), h.below x hx])) j u hu).1).2
  refine ⟨fun n hn => ⟨⟨hlen, _, hnew, rfl, by rw [hname _ rfl]; exact hn⟩, fun j hj hv => ?_⟩,
    fun n r hn => newest_congr (fun j => ?_) r⟩
  · obtain ⟨-, u, hu, -⟩ := hv
    have := (List.getElem?_eq_some_iff.1 hu).1
    rw [hws] at this
    simp at this
    omega
  · constructor
    · rintro ⟨hj, u, hu, hh', hn'⟩
      have hlt := (List.getElem?_eq_some_iff.1 hu).1
      rw [hws] at hlt
      simp at hlt
      by_cases e : j = s.wl.words.length
      · rw [e, hnew] at hu
        cases hu
        rw [hname _ rfl] at hn'
        exact absurd hn' hn
      · rw [hold j (by omega)] at hu
        exact ⟨hj, u, hu, hh', hkeep j u hu ▸ hn'⟩
    · rintro ⟨hj, u, hu, hh', hn'⟩
      have hlt := (List.getElem?_eq_some_iff.1 hu).1
      exact ⟨hj, u, by rw [hold j hlt]; exact hu, hh', (hkeep j u hu).symm ▸ hn'⟩

/-- Defining a word when a name follows and there is room: what is added. -/
theorem define_added (c : Ctx) (p : Prim) (h : Next s pre bs tok more) (ht : tok ≠ []) (hd : Dict s) (hs : SoundSpace s.ds)
    (hr : bodyOf s.ds (utf8 (tok.map lowerChar)) ≤ s.ds.limit) :
    ∃ t, define c p s = .ok ((), t) ∧ Added p (utf8 (tok.map lowerChar)) s t ∧ t.ds.here = bodyOf s.ds (utf8 (tok.map lowerChar)) ∧
      ∃ known, (known = true ↔ ∃ i, Visible s (utf8 (tok.map lowerChar)) i) ∧
        t = { took s pre bs tok with
          tkn := some (tok.map lowerChar), wl := t.wl, ds := t.ds
          outbuf := s.outbuf.map (· ++ remark known (utf8 (tok.map lowerChar))) } := by
  have hi : InSpace s := ⟨hs.small, hs.inside⟩
  obtain ⟨r, f1, f2⟩ := hd.find hi c (utf8 (tok.map lowerChar))
  generalize hlow : tok.map lowerChar = low at *
  generalize hname : utf8 low = name at *
  have hne : low.isEmpty = false := by subst hlow; cases tok <;> simp_all
  have hup := roundUp8_le (s.ds.here + 8 + name.length)
  have hup' : s.ds.here + 8 + name.length ≤ bodyOf s.ds name := by simp only [bodyOf, roundUp8]; omega
  obtain ⟨d1, g1⟩ := compileStr_ok (oc := c.oc) (bs := name) (d := s.ds) ⟨hs.small, hs.inside⟩ (by omega)
  obtain ⟨-, e2, e3, e4, e5, e6, e7, e8⟩ := compileStr_spec hs.small g1
  have hh1 : d1.here = s.ds.here + 8 + name.length := by simp only [DataSpace.here, e2, e4]; omega
  have g2 := align_ok (oc := c.oc) (d := d1) ⟨by rw [e2, e3]; exact hs.small, e5⟩
    (by rw [hh1]; simp only [DataSpace.limit, e2, e3]; exact hr)
  rw [hh1] at g2
  have hst : s.ds.start ≤ s.ds.here := by simp [DataSpace.here]
  let d2 : DataSpace := { d1 with len := bodyOf s.ds name - d1.start }
  have hh2 : d2.here = bodyOf s.ds name := by show d1.start + (_ - d1.start) = _; omega
  let t : VM := { took s pre bs tok with
    tkn := some low
    outbuf := s.outbuf.map (· ++ remark r.isSome name)
    ds := d2
    wl := s.wl.push name (Word.new p .word s.ds.here (bodyOf s.ds name)) }
  have hadd : Added p name s t := by
    refine ⟨e2, e3, ?_, ?_, e8, ?_, e6, e7, rfl⟩
    · show bodyOf s.ds name - d1.start ≤ d1.cap
      simp only [DataSpace.limit] at hr
      omega
    · show s.wl.push name _ = s.wl.push name (Word.new p .word s.ds.here d2.here)
      rw [hh2]
    · show _ ≤ d2.here
      omega
  refine ⟨t, ?_, hadd, hh2, r.isSome, ?_, rfl⟩
  · rw [define, M.bind_ok h.parse, M.bind_ok takeToken_took]
    simp only [hlow, hname]
    rw [M.bind_ok (find_congr (s := s) (s' := { took s pre bs tok with tkn := none }) rfl rfl f1)]
    have e : redefining r.isSome low { took s pre bs tok with tkn := none } = .ok ((),
        { took s pre bs tok with tkn := none, outbuf := s.outbuf.map (· ++ remark r.isSome name) }) := by
      unfold redefining remark
      split
      · rw [outBytes_run, hname]; rfl
      · simp only [List.append_nil, Option.map_id']; rfl
    rw [M.bind_ok e, hne, if_neg (by simp)]
    have e' : compileStrM c name { took s pre bs tok with tkn := none, outbuf := s.outbuf.map (· ++ remark r.isSome name) } =
        .ok (s.ds.here, { took s pre bs tok with tkn := none, outbuf := s.outbuf.map (· ++ remark r.isSome name), ds := d1 }) := by
      unfold compileStrM
      show (match s.ds.compileStr c.oc name with | .ok (a, d) => _ | .error e => _) = _
      rw [g1]
    rw [M.bind_ok e', M.bind_ok (dsOp_ok (s := { took s pre bs tok with
      tkn := none, outbuf := s.outbuf.map (· ++ remark r.isSome name), ds := d1 }) g2)]
    show Except.ok ((), _) = Except.ok ((), _)
    congr 2
    simp only [t]
    have e3 : ({ d1 with len := roundUp8 (s.ds.here + 8 + name.length) - d1.start } : DataSpace).here =
      bodyOf s.ds name := hh2
    rw [e3]
    rfl
  · cases r with
    | none => simp only [Option.isSome_none, Bool.false_eq_true, false_iff]; rintro ⟨i, hv⟩; exact f2 i hv
    | some i => simp only [Option.isSome_some, true_iff]; exact ⟨i, f2.1⟩

theorem bodyOf_le (d : DataSpace) (name : List Byte) : d.here + 8 + name.length ≤ bodyOf d name := by
  simp only [bodyOf, roundUp8]; omega

/-- Defining a word when a name follows and there is room. -/
theorem define_run (c : Ctx) (p : Prim) (hp : p ≠ .core .unmark) (h : Next s pre bs tok more) (ht : tok ≠ []) (hd : Dict s) (hs : SoundSpace s.ds)
    (h1 : s.wl.words ≠ []) (hr : bodyOf s.ds (utf8 (tok.map lowerChar)) ≤ s.ds.limit) :
    ∃ t, define c p s = .ok ((), t) ∧ Defines s t pre bs tok p (bodyOf s.ds (utf8 (tok.map lowerChar))) := by
  have hi : InSpace s := ⟨hs.small, hs.inside⟩
  obtain ⟨t, t1, hadd, t3, known, k1, k2⟩ := define_added c p h ht hd hs hr
  have hn := hadd.newest hd hi h1 (t := t) rfl (fun _ _ => rfl) (Nat.le_refl _)
  have hed : Edit .any s t := hadd.edit' hp hi rfl rfl (fun _ _ => rfl) (Nat.le_refl _)
  have hb := bodyOf_le s.ds (utf8 (tok.map lowerChar))
  refine ⟨t, t1, ⟨known, k1, k2⟩, ⟨_, by rw [hadd.wl]; rfl, rfl, t3, rfl, rfl, rfl⟩, by rw [hadd.wl]; rfl, hn.1, hn.2, hed.dict hd, ?_,
    hadd.start, hadd.cap, t3, hadd.below⟩
  refine ⟨hadd.start ▸ hs.pos, hadd.start ▸ hs.aligned, ?_, ?_, hadd.len⟩
  · rw [hadd.start, hadd.cap]; exact hs.small
  · have := hs.vars
    have := hadd.start
    simp only [DataSpace.here] at *
    omega

/-- Adding cells changes no lookup. -/
theorem newest_extends {d : DataSpace} {vs : List Cell} (hd : Dict s) (h : Extends s.ds vs d) (name : List Byte)
    (r : Option Nat) : Newest { s with ds := d } name r ↔ Newest s name r := by
  have hh : s.ds.here ≤ d.here := by
    have := h.len; have := h.start; simp only [DataSpace.here]; omega
  have hk : Intact s { s with ds := d } := hd.intact hh (fun x hx => h.rest x (.inl hx))
  refine newest_congr (visible_congr (s := s) (t := { s with ds := d }) (fun i w hw => ⟨w, hw, rfl, ?_⟩) (fun i v hv hl => ?_) name) r
  · exact (nameIn_same (d := s.ds) (d' := d) (v := w) (w := w) rfl (hk i w hw).1).2
  · have := (List.getElem?_eq_some_iff.1 hv).1
    exact absurd hl (Nat.not_le.2 this)

theorem Spec.Defines.cells {p : Prim} {top : Nat} {d : DataSpace} {vs : List Cell} (h : Defines s t pre bs tok p top)
    (he : Extends t.ds vs d) (hr : RoomFor t.ds vs.length) (h0 : s.ds.here ≤ t.ds.here) :
    Defines s { t with ds := d } pre bs tok p (top + 8 * vs.length) := by
  have hh : d.here = t.ds.here + 8 * vs.length := by
    have := he.len; have := he.start; simp only [DataSpace.here]; omega
  have hk : Intact t { t with ds := d } := h.dict.intact (by show t.ds.here ≤ d.here; omega) (fun x hx => he.rest x (.inl hx))
  obtain ⟨known, k1, k2⟩ := h.frame
  refine ⟨⟨known, k1, ?_⟩, h.word, h.last, fun n hn => (newest_extends h.dict he n _).2 (h.found n hn),
    fun n r hn => (newest_extends h.dict he n r).trans (h.others n r hn), ?_, he.sound h.space hr,
    he.start.trans h.start, he.cap.trans h.cap, ?_, fun x hx => ?_⟩
  · conv => lhs; rw [k2]
  · exact Spec.Edit.dict (b := .any) h.dict (.keep he.start hk rfl rfl
      ⟨rfl, fun i v w h1 h2 => by rw [show t.wl.words[i]? = some v from h1] at h2; cases h2; exact ⟨⟨rfl, rfl, rfl, rfl, .inl rfl⟩, trivial, fun _ => ⟨_, _, rfl⟩⟩⟩
      (fun e => by cases e))
  · show d.here = _
    rw [hh, h.top]
  · show d.bytes x = _
    rw [he.rest x (.inl (by omega)), h.below x hx]

end Verif
