import Verif.Spec.Quoting
import Verif.Lemmas.Status
import Verif.Lemmas.Text
import Verif.Lemmas.Dictionary
import Verif.Lemmas.MemoryWords
import Verif.Lemmas.NumberWords

/-!
# Words that take a name from the text
-/

namespace Verif
open Spec Stack

variable {c : Ctx} {s : VM} {pre bs tok more : List Char}

theorem Spec.Next.parse (h : Next s pre bs tok more) : parseWord s = .ok ((), took s pre bs tok) := by
  obtain ⟨old, ho⟩ := h.old
  by_cases hne : tok = []
  · have hm := h.last hne
    have hr := h.reading
    subst hne hm
    simp only [List.append_nil] at hr
    have hp := parseWord_reading hr ho (tok := []) (n := byteLen bs) (fun _ => scanWord_end bs h.blank)
      (by intro e; subst e; exact ⟨rfl, rfl⟩)
    rw [hp]
    simp only [took, List.append_nil, byteLen_append]
    rfl
  · have hsc : scanWord (bs ++ (tok ++ more)) 0 [] = (tok, byteLen (bs ++ tok)) := by
      rw [scanWord_blank _ _ _ h.blank, scanWord_word tok more _ [] h.solid h.ends (.inl hne)]
      simp
    have hp := parseWord_reading h.reading ho (fun _ => hsc)
      (by intro h'; simp at h'; exact absurd h'.2.1 hne)
    rw [hp]
    simp only [took, byteLen_append, Nat.add_assoc]
    rfl

theorem took_task (s : VM) (pre bs tok : List Char) :
    (took s pre bs tok).task = atPosition s.task (byteLen (pre ++ bs ++ tok)) := VM.task_setTask s _

theorem took_items (s : VM) (pre bs tok : List Char) : (took s pre bs tok).task.s = s.task.s := by
  rw [took_task]; rfl

/-- Adding cells. -/
theorem extends_nil (d : DataSpace) : Extends d [] d :=
  ⟨rfl, rfl, rfl, by simp, fun _ _ => rfl⟩

theorem Spec.Extends.snoc {d d' : DataSpace} {vs : List Cell} (h : Extends d vs d') (v : Cell) :
    Extends d (vs ++ [v]) { d'.setCell d'.here v with len := d'.len + 8 } := by
  have hh : d'.here = d.here + 8 * vs.length := by
    have := h.len; have := h.start; simp only [DataSpace.here]; omega
  refine ⟨h.start, h.cap, ?_, fun k x hx => ?_, fun a ha => ?_⟩
  · have := h.len; simp; omega
  · by_cases hk : k < vs.length
    · rw [List.getElem?_append_left hk] at hx
      rw [← h.cells k x hx]
      exact DataSpace.cellAt_setCell_ne (by omega)
    · rw [List.getElem?_append_right (by omega)] at hx
      have : k = vs.length := by
        have := (List.getElem?_eq_some_iff.1 hx).1
        simp at this; omega
      subst this
      simp at hx
      subst hx
      rw [← hh]
      exact DataSpace.cellAt_setCell _ _ _
  · have e : ({ d'.setCell d'.here v with len := d'.len + 8 } : DataSpace).here = d'.here + 8 := by
      simp only [DataSpace.here, DataSpace.setCell]; omega
    rw [e] at ha
    show (d'.setCell d'.here v).bytes a = _
    rw [DataSpace.setCell_bytes_out (by omega)]
    exact h.rest a (by omega)

theorem Spec.Extends.sound {d d' : DataSpace} {vs : List Cell} (h : Extends d vs d') (hd : SoundSpace d)
    (hr : RoomFor d vs.length) : SoundSpace d' := by
  have h1 := h.len
  have h2 := hd.vars
  simp only [RoomFor, DataSpace.here, DataSpace.limit] at hr
  exact ⟨h.start ▸ hd.pos, h.start ▸ hd.aligned, by rw [h.start, h.cap]; exact hd.small, by omega, by rw [h.cap]; omega⟩

theorem compileCell_run {d : DataSpace} {vs : List Cell} (hd : SoundSpace d) (he : Extends d vs s.ds)
    (hr : RoomFor d (vs.length + 1)) (v : Cell) :
    ∃ d', compileCell c v s = .ok ((), { s with ds := d' }) ∧ Extends d (vs ++ [v]) d' := by
  refine ⟨_, ?_, he.snoc v⟩
  have h1 := he.len
  have h2 := he.start
  have h3 := he.cap
  simp only [RoomFor, DataSpace.here, DataSpace.limit] at hr
  have hs : SoundSpace s.ds := he.sound hd (by simp only [RoomFor, DataSpace.here, DataSpace.limit]; omega)
  rw [compileCell, dsOp_ok (ds_compileCell hs v (by simp only [DataSpace.here, DataSpace.limit]; omega))]

/-- A number as a literal. -/
theorem compileInteger_run (hd : SoundSpace s.ds) (hr : RoomFor s.ds 2) (v : Cell) :
    ∃ d', compileInteger c v s = .ok ((), { s with ds := d' }) ∧ Extends s.ds [toCell s.refs.lit, v] d' := by
  obtain ⟨d1, h1, e1⟩ := compileCell_run (c := c) (vs := []) hd (extends_nil s.ds)
    (by simp only [RoomFor, List.length_nil] at hr ⊢; omega) (toCell s.refs.lit)
  obtain ⟨d2, h2, e2⟩ := compileCell_run (c := c) (s := { s with ds := d1 }) hd e1 hr v
  refine ⟨d2, ?_, e2⟩
  rw [compileInteger, M.bind_ok (getRefs_apply s)]
  show (compileCell c (toCell s.refs.lit) >>= fun _ => compileCell c v) s = _
  rw [M.bind_ok h1, h2]

/-- Looking up the token just taken. -/
theorem find_took (hd : Dict s) (hi : InSpace s) (pre bs tok : List Char) {r : Option Nat}
    (hn : Newest s (utf8 tok) r) (x : Option (List Char)) :
    find c (utf8 tok) { took s pre bs tok with tkn := x } = .ok (r, { took s pre bs tok with tkn := x }) := by
  obtain ⟨r', h1, h2⟩ := hd.find hi c (utf8 tok)
  have e := Newest.unique hn h2
  subst e
  exact find_congr (s := s) rfl rfl h1

theorem takeToken_took : takeToken (took s pre bs tok) = .ok (tok, { took s pre bs tok with tkn := none }) := rfl

end Verif
