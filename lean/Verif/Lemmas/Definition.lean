import Verif.Lemmas.Source
import Verif.Lemmas.Orderly
import Verif.Spec.Defining

/-!
# A colon definition from source text
-/

namespace Verif
open Spec Stack

/-- The machine with another word list, output, data space and mode. -/
def VM.opened (s : VM) (wl : Wordlist) (o : Option (List Byte)) (d : DataSpace) (b : Bool) : VM :=
  { s.setTask { s.task with st := { s.task.st with isCompiling := b } } with wl := wl, outbuf := o, ds := d }

section
variable (s : VM) (wl wl' : Wordlist) (o : Option (List Byte)) (d d' : DataSpace) (b b' : Bool) (n wp : Nat)
  (tk : List Char) (x : Buf)
@[simp] theorem VM.opened_ds : (s.opened wl o d b).ds = d := rfl
@[simp] theorem VM.opened_wl : (s.opened wl o d b).wl = wl := rfl
@[simp] theorem VM.opened_refs : (s.opened wl o d b).refs = s.refs := rfl
@[simp] theorem VM.opened_err : (s.opened wl o d b).lastError = s.lastError := rfl
@[simp] theorem VM.opened_forward : (s.opened wl o d b).forward = s.forward := rfl
@[simp] theorem VM.opened_task : (s.opened wl o d b).task =
    { s.task with st := { s.task.st with isCompiling := b } } := VM.task_setTask s _

theorem VM.code_self : s.code (s.ds, s.task.c) = s := by
  have : s.setTask { s.task with c := s.task.c } = s := VM.setTask_task s
  simp only [VM.code, this]

theorem VM.seen_self (h : s.tkn = some tk) : s.seen s.task.st.sourceIndex tk s.task.st.wp = s := by
  have e : s.setTask { s.task with st := { s.task.st with sourceIndex := s.task.st.sourceIndex, wp := s.task.st.wp } } = s :=
    VM.setTask_task s
  rw [VM.seen, e, VM.setTkn, ← h]

/-- Turning `:` into a definition that is being compiled. -/
theorem VM.open_seen (h : s.task.st.isCompiling = b') :
    ({ s.seen n tk wp with wl := wl, outbuf := o, ds := d } : VM) = (s.opened wl o d b').seen n tk wp := by
  subst h
  have e : (s.opened wl o d s.task.st.isCompiling) = { s with wl := wl, outbuf := o, ds := d } := by
    have : s.setTask { s.task with st := { s.task.st with isCompiling := s.task.st.isCompiling } } = s :=
      VM.setTask_task s
    rw [VM.opened, this]
  rw [e]
  rfl

theorem VM.opened_mode : ((s.opened wl o d b).seen n tk wp).setTask
    { ((s.opened wl o d b).seen n tk wp).task with
      st := { ((s.opened wl o d b).seen n tk wp).task.st with isCompiling := b' } } =
    (s.opened wl o d b').seen n tk wp := by
  have e1 : (s.opened wl o d b).seen n tk wp = { (s.setTask { s.task with
      st := { s.task.st with isCompiling := b } }).setTask { (s.opened wl o d b).task with
      st := { (s.opened wl o d b).task.st with sourceIndex := n, wp := wp } } with
      wl := wl, outbuf := o, ds := d, tkn := some tk } := rfl
  have e2 : (s.opened wl o d b').seen n tk wp = { (s.setTask { s.task with
      st := { s.task.st with isCompiling := b' } }).setTask { (s.opened wl o d b').task with
      st := { (s.opened wl o d b').task.st with sourceIndex := n, wp := wp } } with
      wl := wl, outbuf := o, ds := d, tkn := some tk } := rfl
  have e3 : ∀ T : Task, ((s.opened wl o d b).seen n tk wp).setTask T =
      { (s.setTask { s.task with
      st := { s.task.st with isCompiling := b } }).setTask { (s.opened wl o d b).task with
      st := { (s.opened wl o d b).task.st with sourceIndex := n, wp := wp } } |>.setTask T with
      wl := wl, outbuf := o, ds := d, tkn := some tk } := fun _ => rfl
  rw [e3, e2]
  simp only [VM.setTask_setTask, VM.seen_task, VM.opened_task]

theorem VM.opened_code_mode : (((s.opened wl o d b).seen n tk wp).code x).setTask
    { (((s.opened wl o d b).seen n tk wp).code x).task with
      st := { (((s.opened wl o d b).seen n tk wp).code x).task.st with isCompiling := b' } } =
    ((s.opened wl o d b').seen n tk wp).code x := by
  rw [← VM.opened_mode s wl o d b b' n wp tk]
  rw [← VM.code_setTask]
  rw [VM.code_task]

theorem VM.opened_setWl : ({ ((s.opened wl o d b).seen n tk wp).code x with wl := wl' } : VM) =
    ((s.opened wl' o d b).seen n tk wp).code x := rfl

end

/-- The word that `:` adds. -/
def colonWord (s : VM) (dfa : Nat) (h : Bool) : Word :=
  { Word.new (.core .nest) .word s.ds.here dfa with hidden := h }

/-- The word list with it. -/
def colonList (s : VM) (name : List Byte) (dfa : Nat) (h : Bool) : Wordlist := s.wl.push name (colonWord s dfa h)

theorem colonWord_action (s : VM) (dfa : Nat) (h : Bool) : (colonWord s dfa h).action ≠ .core .unmark := nofun

theorem colonList_set (s : VM) (name : List Byte) (dfa : Nat) (h h' : Bool) (t : VM)
    (ht : t.wl = colonList s name dfa h) :
    modWord t.wl.last (fun w => { w with hidden := h' }) t =
      .ok ((), { t with wl := colonList s name dfa h' }) := by
  have e : t.wl.words[t.wl.last]? = some { colonWord s dfa h with
      link := s.wl.buckets (Wordlist.bucketOf (Wordlist.hash name)), hash := Wordlist.hash name } := by
    rw [ht]
    simp [colonList, Wordlist.push]
  rw [modWord_apply, e]
  simp only [Except.ok.injEq, Prod.mk.injEq, true_and]
  congr 1
  rw [ht]
  simp only [colonList, Wordlist.push, Wordlist.mk.injEq, and_true]
  rw [List.set_append_right _ _ (Nat.le_refl _), Nat.sub_self]
  rfl

/-- One turn of the outer interpreter. -/
theorem turn {cfg : Cfg} {depth : Nat} {s s1 s2 : VM} {t : List Char} (h1 : parseWord s = .ok ((), s1))
    (ht : s1.tkn = some t) (hne : t ≠ []) (h2 : evalToken (ctx cfg depth) s1 = .ok ((), s2))
    (he : s2.lastError = none) (hi : Idle s2) (c1 : Calm s2.task.s) (c2 : Calm s2.task.r) (c3 : Calm s2.task.c)
    (c4 : Calm s2.task.f) (fuel : Nat) :
    evaluateInput cfg depth (fuel + 2) s = evaluateInput cfg depth (fuel + 1) s2 := by
  have hne' : ¬ s1.tkn = some [] := by rw [ht]; simp [hne]
  conv => lhs; unfold evaluateInput
  simp only [M.bind_apply, h1, getVM_apply]
  rw [if_neg hne']
  simp only [M.bind_apply, h2, getError_apply, he, Option.isSome_none, Bool.false_eq_true, if_false, idle_run hi,
    calm_check c1 c2 c3 c4]

/-- The data space after the header of a new word. -/
structure Header (s : VM) (name : List Byte) (d : DataSpace) : Prop where
  start : d.start = s.ds.start
  cap : d.cap = s.ds.cap
  here : d.here = roundUp8 (s.ds.here + 8 + name.length)
  inside : d.len ≤ d.cap
  below : ∀ x, x < s.ds.here → d.bytes x = s.ds.bytes x
  count : d.cellAt s.ds.here = toCell name.length
  text : d.bytesAt (s.ds.here + 8) name.length = name

theorem header_ok {oc : Bool} {s : VM} {name : List Byte} (hs : SoundSpace s.ds)
    (room : roundUp8 (s.ds.here + 8 + name.length) ≤ s.ds.limit) :
    ∃ d1 d2, s.ds.compileStr oc name = .ok (s.ds.here, d1) ∧ d1.align oc = .ok d2 ∧ Header s name d2 := by
  have hsp : Space s.ds := ⟨hs.small, hs.inside⟩
  have hr := roundUp8_le (s.ds.here + 8 + name.length)
  obtain ⟨d1, h1⟩ := compileStr_ok (oc := oc) (bs := name) hsp (by omega)
  obtain ⟨-, e2, e3, e4, e5, e6, e7, e8⟩ := compileStr_spec hs.small h1
  have hh : d1.here = s.ds.here + 8 + name.length := by
    simp only [DataSpace.here] at *; omega
  have hl : d1.limit = s.ds.limit := by simp only [DataSpace.limit, e2, e3]
  have hs1 : Space d1 := ⟨by rw [e2, e3]; exact hs.small, e5⟩
  have ha := align_ok (oc := oc) hs1 (by rw [hh, hl]; exact room)
  refine ⟨d1, _, h1, ha, ⟨e2, e3, ?_, ?_, e8, e6, e7⟩⟩
  · rw [hh]
    have : s.ds.here = s.ds.start + s.ds.len := rfl
    show d1.start + (roundUp8 (s.ds.here + 8 + name.length) - d1.start) = _
    omega
  · rw [hh]
    have : s.ds.limit = s.ds.start + s.ds.cap := rfl
    show roundUp8 (s.ds.here + 8 + name.length) - d1.start ≤ d1.cap
    omega

/-- What `:` does with the next token, and the data space that it makes. -/
theorem colon_at {c : Ctx} {s : VM} (hdict : Dict s) (hsp : InSpace s) (hmode : s.task.st.isCompiling = false) (herr : s.lastError = none)
    {pre bs name rest tc : List Char} {ic : Nat} {d1 d2 : DataSpace}
    (hin : inputBuffer s.task = .ok (some (pre ++ (bs ++ (name ++ rest))))) (hlt : byteLen (pre ++ (bs ++ (name ++ rest))) < 2 ^ 63)
    (hb : ∀ ch ∈ bs, Blank ch) (hne : name ≠ []) (hnb : ∀ ch ∈ name, ¬Blank ch) (he : EndsToken rest)
    (h1 : s.ds.compileStr c.oc (utf8 (name.map lowerChar)) = .ok (s.ds.here, d1)) (h2 : d1.align c.oc = .ok d2)
    (hH : d2.here = roundUp8 (s.ds.here + 8 + (utf8 (name.map lowerChar)).length)) :
    ∃ o, (∀ r, Newest s (utf8 (name.map lowerChar)) r → o = s.outbuf.map (· ++ remark r.isSome (utf8 (name.map lowerChar)))) ∧
      colon c (s.seen (byteLen pre) tc ic) = .ok ((), (s.opened
        (colonList s (utf8 (name.map lowerChar)) (roundUp8 (s.ds.here + 8 + (utf8 (name.map lowerChar)).length)) true)
        o d2 true).seen (byteLen (pre ++ (bs ++ name))) (name.map lowerChar) ic) := by
  have hp := seen_parseWord (x := (s.ds, s.task.c)) (tk := tc) (wp := ic) hin hlt hb hne hnb he
  have e1 : ∀ n tk, (s.seen n tk ic).code (s.ds, s.task.c) = s.seen n tk ic := by
    intro n tk
    have := (s.seen n tk ic).code_self
    rw [VM.seen_task] at this
    exact this
  rw [e1, e1] at hp
  obtain ⟨r, f1, fN⟩ := hdict.find hsp c (utf8 (name.map lowerChar))
  have f2 := find_congr (s := s) (s' := (s.seen (byteLen (pre ++ (bs ++ name))) name ic).setTkn none) rfl rfl f1
  obtain ⟨o, ho', ho⟩ : ∃ o, (∀ r, Newest s (utf8 (name.map lowerChar)) r → o = s.outbuf.map (· ++ remark r.isSome (utf8 (name.map lowerChar)))) ∧
      redefining r.isSome (name.map lowerChar) ((s.seen (byteLen (pre ++ (bs ++ name))) name ic).setTkn none) =
      .ok ((), { (s.seen (byteLen (pre ++ (bs ++ name))) name ic).setTkn none with outbuf := o }) := by
    refine ⟨_, fun r' h => by rw [Newest.unique h fN], ?_⟩
    cases hrs : r.isSome with
    | true => rfl
    | false =>
      have : s.outbuf.map (· ++ remark false (utf8 (name.map lowerChar))) = s.outbuf := by simp [remark]
      rw [this]; rfl
  have hem : (name.map lowerChar).isEmpty = false := by
    cases name with
    | nil => exact absurd rfl hne
    | cons a l => rfl
  have hd : define c (.core .nest) (s.seen (byteLen pre) tc ic) = .ok ((), (s.opened
      (colonList s (utf8 (name.map lowerChar)) (roundUp8 (s.ds.here + 8 + (utf8 (name.map lowerChar)).length)) false)
      o d2 false).seen (byteLen (pre ++ (bs ++ name))) (name.map lowerChar) ic) := by
    have hcs : compileStrM c (utf8 (name.map lowerChar)) { (s.seen (byteLen (pre ++ (bs ++ name))) name ic).setTkn none with outbuf := o } =
        .ok (s.ds.here, { (s.seen (byteLen (pre ++ (bs ++ name))) name ic).setTkn none with outbuf := o, ds := d1 }) := by
      simp only [compileStrM]
      rw [show ({ (s.seen (byteLen (pre ++ (bs ++ name))) name ic).setTkn none with outbuf := o } : VM).ds = s.ds from rfl, h1]
    unfold define
    rw [M.bind_ok hp, M.bind_ok (takeToken_run (t := name) rfl)]
    rw [M.bind_ok f2, M.bind_ok ho, hem]
    simp only [Bool.false_eq_true, if_false]
    rw [M.bind_ok hcs]
    have hal : dsOp (fun d => d.align c.oc) { (s.seen (byteLen (pre ++ (bs ++ name))) name ic).setTkn none with outbuf := o, ds := d1 } =
        .ok ((), { (s.seen (byteLen (pre ++ (bs ++ name))) name ic).setTkn none with outbuf := o, ds := d2 }) := by
      rw [dsOp_ok (d := d2) h2]
    rw [M.bind_ok hal]
    rw [← VM.open_seen s _ _ _ false _ _ _ hmode]
    simp only [M.bind_apply, getHere, wlPush, modVM_apply, putToken]
    rw [hH]
    rfl
  refine ⟨o, ho', ?_⟩
  unfold colon
  rw [M.bind_ok hd]
  simp only [M.bind_apply, getError_apply]
  have he1 : ((s.opened (colonList s (utf8 (name.map lowerChar)) (roundUp8 (s.ds.here + 8 + (utf8 (name.map lowerChar)).length)) false)
      o d2 false).seen (byteLen (pre ++ (bs ++ name))) (name.map lowerChar) ic).lastError = none := herr
  rw [he1]
  simp only [M.bind_apply, getWl_apply]
  rw [colonList_set s (utf8 (name.map lowerChar)) (roundUp8 (s.ds.here + 8 + (utf8 (name.map lowerChar)).length)) false true _ rfl]
  simp only [rightBracket, modSt_apply]
  rw [← VM.opened_mode s _ o d2 false true]
  rfl

/-- What `:` does with the next token. -/
theorem colon_ok {c : Ctx} {s : VM} (hL : Listening s) {pre text name rest tc : List Char} {ic : Nat}
    (hin : inputBuffer s.task = .ok (some (pre ++ text))) (hlt : byteLen (pre ++ text) < 2 ^ 63)
    (hr : Reads text name rest) (room : roundUp8 (s.ds.here + 8 + (utf8 (name.map lowerChar)).length) ≤ s.ds.limit) :
    ∃ o d mid, text = mid ++ rest ∧ Header s (utf8 (name.map lowerChar)) d ∧ (Newest s (utf8 (name.map lowerChar)) none → o = s.outbuf) ∧
      colon c (s.seen (byteLen pre) tc ic) = .ok ((), (s.opened
        (colonList s (utf8 (name.map lowerChar)) (roundUp8 (s.ds.here + 8 + (utf8 (name.map lowerChar)).length)) true)
        o d true).seen (byteLen (pre ++ mid)) (name.map lowerChar) ic) := by
  obtain ⟨bs, rfl, hb, hne, hnb, he⟩ := hr
  obtain ⟨d1, d2, h1, h2, hH⟩ := header_ok (oc := c.oc) (name := utf8 (name.map lowerChar)) hL.space room
  obtain ⟨o, o1, o2⟩ := colon_at (tc := tc) (ic := ic) hL.dict ⟨hL.space.small, hL.space.inside⟩ hL.interpreting hL.noError hin hlt hb hne hnb he h1 h2 hH.here
  exact ⟨o, d2, bs ++ name, by simp, hH, fun h => by simpa [remark] using o1 none h, o2⟩

/-- The header of the new word is in the data space. -/
structure Named (s : VM) (name : List Byte) (dfa : Nat) (d : DataSpace) : Prop where
  start : d.start = s.ds.start
  below : ∀ x, x < s.ds.here → d.bytes x = s.ds.bytes x
  count : d.cellAt s.ds.here = toCell name.length
  text : d.bytesAt (s.ds.here + 8) name.length = name
  fits : s.ds.here + 8 + name.length ≤ dfa
  top : dfa ≤ d.here
  small : dfa < 2 ^ 63

theorem Header.named {s : VM} {name : List Byte} {d : DataSpace} (h : Header s name d) (hs : SoundSpace s.ds) :
    Named s name (roundUp8 (s.ds.here + 8 + name.length)) d := by
  refine ⟨h.start, h.below, h.count, h.text, (roundUp8_le _).1, by rw [h.here]; exact Nat.le_refl _, ?_⟩
  have h1 := hs.small
  have h2 := h.inside
  have h3 := h.start
  have h4 := h.cap
  have h5 := h.here
  simp only [DataSpace.here] at h5
  simp only [DataSpace.here]
  omega

theorem Named.congr {s : VM} {name : List Byte} {dfa : Nat} {d e : DataSpace} (h : Named s name dfa d)
    (h1 : e.start = d.start) (h2 : ∀ x, x < dfa → e.bytes x = d.bytes x) (h3 : dfa ≤ e.here) : Named s name dfa e := by
  have hf := h.fits
  refine ⟨h1.trans h.start, fun x hx => (h2 x (by omega)).trans (h.below x hx), ?_, ?_, hf, h3, h.small⟩
  · rw [DataSpace.cellAt_congr fun z _ hz => h2 z (by omega)]; exact h.count
  · rw [bytesAt_congr fun z _ hz => h2 z (by omega)]; exact h.text

section
variable {s t : VM} {name : List Byte} {dfa : Nat} {b : Bool}

theorem Named.nameIn (h : Named s name dfa t.ds) : nameIn t.ds (colonWord s dfa b) = name := by
  have h1 := h.fits
  have h2 := h.small
  have : (colonWord s dfa b).nfa = s.ds.here := rfl
  rw [Spec.nameIn, this, h.count, toNat_toCell (by omega), h.text]

theorem Named.dict (h : Named s name dfa t.ds) (hd : Dict s) (hw : t.wl = colonList s name dfa b) : Dict t := by
  have h1 := h.fits
  have h2 := h.small
  refine hd.push (name := name) (w := colonWord s dfa b) ?_ h.start h.below (Nat.le_refl _) ?_ h.nameIn ?_ ?_
  · rw [hw]; rfl
  · have : (colonWord s dfa b).nfa = s.ds.here := rfl
    rw [this, h.count, toNat_toCell (by omega)]
    exact h1
  · have : reserve (colonWord s dfa b) = 0 := if_neg (colonWord_action _ _ _)
    rw [this]; exact h.top
  · intro e; exact absurd e (colonWord_action _ _ _)

theorem colonList_old (hw : t.wl = colonList s name dfa b) {i : Nat} {w : Word} (h : s.wl.words[i]? = some w) :
    t.wl.words[i]? = some w := by
  rw [hw]
  simp only [colonList, Wordlist.push]
  rw [List.getElem?_append_left (List.getElem?_eq_some_iff.1 h).1, h]

theorem colonList_new (hw : t.wl = colonList s name dfa b) :
    t.wl.words[s.wl.words.length]? = some { colonWord s dfa b with
      link := s.wl.buckets (Wordlist.bucketOf (Wordlist.hash name)), hash := Wordlist.hash name } := by
  rw [hw]; simp [colonList, Wordlist.push]

theorem colonList_get (hw : t.wl = colonList s name dfa b) {i : Nat} {w : Word} (h : t.wl.words[i]? = some w) :
    s.wl.words[i]? = some w ∨ i = s.wl.words.length ∧ w = { colonWord s dfa b with
      link := s.wl.buckets (Wordlist.bucketOf (Wordlist.hash name)), hash := Wordlist.hash name } := by
  rcases Nat.lt_trichotomy i s.wl.words.length with hl | hl | hl
  · left
    have := colonList_old hw (List.getElem?_eq_getElem hl)
    rw [this] at h
    rw [List.getElem?_eq_getElem hl, h]
  · subst hl
    rw [colonList_new hw] at h
    exact .inr ⟨rfl, (Option.some.inj h).symm⟩
  · rw [hw, List.getElem?_eq_none (by simp [colonList, Wordlist.push]; omega)] at h
    cases h

theorem Named.nameOld (h : Named s name dfa t.ds) (hd : Dict s) {i : Nat} {w : Word}
    (hw : s.wl.words[i]? = some w) : Spec.nameIn t.ds w = Spec.nameIn s.ds w := by
  refine (nameIn_same (v := w) (w := w) rfl fun z _ hz => h.below z ?_).2
  have := hd.high i w hw; have := hd.top i w hw
  omega

/-- The new word is not found while it is hidden. -/
theorem Named.newest_hidden (h : Named s name dfa t.ds) (hd : Dict s) (hw : t.wl = colonList s name dfa true)
    (nm : List Byte) (r : Option Nat) : Newest t nm r ↔ Newest s nm r := by
  refine newest_congr (visible_congr (fun i w hi => ⟨w, colonList_old hw hi, rfl, h.nameOld hd hi⟩) ?_ nm) r
  intro i v hv hl
  rcases colonList_get hw hv with h1 | ⟨rfl, rfl⟩
  · have := (List.getElem?_eq_some_iff.1 h1).1
    omega
  · rfl

/-- The new word is found under its name, and hides nothing else. -/
theorem Named.newest_shown (h : Named s name dfa t.ds) (hd : Dict s) (hl : 1 ≤ s.wl.words.length)
    (hw : t.wl = colonList s name dfa false) (nm : List Byte) :
    (SameName name nm → Newest t nm (some s.wl.words.length)) ∧
    (¬ SameName name nm → ∀ r, Newest t nm r ↔ Newest s nm r) := by
  have hvis : ∀ i, Visible t nm i ↔ (i = s.wl.words.length ∧ SameName name nm) ∨ Visible s nm i := by
    intro i
    constructor
    · rintro ⟨h1, w, h2, h3, h4⟩
      rcases colonList_get hw h2 with h5 | ⟨rfl, rfl⟩
      · exact .inr ⟨h1, w, h5, h3, by rw [← h.nameOld hd h5]; exact h4⟩
      · have : Spec.nameIn t.ds (colonWord s dfa false) = name := h.nameIn
        exact .inl ⟨rfl, by rw [← this]; exact h4⟩
    · rintro (⟨rfl, h1⟩ | ⟨h1, w, h2, h3, h4⟩)
      · refine ⟨hl, _, colonList_new hw, rfl, ?_⟩
        have : Spec.nameIn t.ds (colonWord s dfa false) = name := h.nameIn
        rw [← this] at h1
        exact h1
      · exact ⟨h1, w, colonList_old hw h2, h3, by rw [h.nameOld hd h2]; exact h4⟩
  constructor
  · intro hs
    refine ⟨(hvis _).2 (.inl ⟨rfl, hs⟩), fun j hj hv => ?_⟩
    obtain ⟨_, w, h2, -⟩ := hv
    rcases colonList_get hw h2 with h5 | ⟨rfl, rfl⟩
    · have := (List.getElem?_eq_some_iff.1 h5).1; omega
    · omega
  · intro hs r
    refine newest_congr (fun i => ?_) r
    rw [hvis]
    simp [hs]

end

theorem Spec.Spells.mono {f : FloatOps} {s t : VM} (hn : ∀ nm r, Newest s nm r → Newest t nm r)
    (hw : ∀ (i : Nat) (w : Word), s.wl.words[i]? = some w → t.wl.words[i]? = some w) (hb : baseOf t = baseOf s)
    {tok : List Char} {i : Item} (h : Spells f s tok i) : Spells f t tok i := by
  cases h with
  | word h1 h2 h3 => exact .word (hn _ _ h1) (hw _ _ h2) h3
  | imm h1 h2 h3 h4 => exact .imm (hn _ _ h1) (hw _ _ h2) h3 h4
  | lit h1 h2 => exact .lit (hn _ _ h1) (by rw [hb]; exact h2)
  | flt h1 h2 h3 => exact .flt (hn _ _ h1) (by rw [hb]; exact h2) h3

theorem Spec.Written.mono {f : FloatOps} {s t : VM} (hn : ∀ nm r, Newest s nm r → Newest t nm r)
    (hw : ∀ (i : Nat) (w : Word), s.wl.words[i]? = some w → t.wl.words[i]? = some w) (hb : baseOf t = baseOf s)
    {text rest : List Char} {l : List Item} (h : Written f s text l rest) : Written f t text l rest := by
  induction h with
  | done => exact .done
  | token h1 h2 h3 h4 h5 _ ih => exact .token h1 h2 h3 h4 (h5.mono hn hw hb) ih
  | string h1 h2 h3 h4 h5 h6 h7 h8 h9 _ ih => exact .string h1 h2 h3 h4 (hn _ _ h5) (hw _ _ h6) h7 h8 h9 ih

theorem Spec.Compiler.mono {R : Refs} {lv : Nat} {wl v : Wordlist} (h : Compiler R lv wl)
    (hw : ∀ (i : Nat) (w : Word), wl.words[i]? = some w → v.words[i]? = some w) (hs : v.words.length ≤ 2 ^ 64) :
    Compiler R lv v := by
  refine ⟨hs, fun r hr => ?_, ?_, ?_, ?_⟩
  · obtain ⟨w, h1, h2⟩ := h.runtime r hr; exact ⟨w, hw _ _ h1, h2⟩
  · obtain ⟨w, h1, h2⟩ := h.exit; exact ⟨w, hw _ _ h1, h2⟩
  · obtain ⟨w, h1, h2⟩ := h.sQuote; exact ⟨w, hw _ _ h1, h2⟩
  · obtain ⟨w, h1, h2⟩ := h.leave; exact ⟨w, hw _ _ h1, h2⟩

/-- What a definition leaves behind. -/
structure Defining (s : VM) (name : List Byte) (lv : Nat) (p : Stmt) (dfa : Nat) (t : VM) : Prop where
  refs : t.refs = s.refs
  wl : t.wl = colonList s name dfa false
  cur : t.cur = s.cur
  named : Named s name dfa t.ds
  cap : t.ds.cap = s.ds.cap
  code : (Stmt.seq (p.place dfa) .exit).At s.refs lv t.ds dfa
  here : t.ds.here = p.next dfa + 8
  stacks : LikeStack t.task.s s.task.s ∧ LikeStack t.task.r s.task.r ∧ t.task.f = s.task.f
  idle : pc t = pc s
  output : Newest s name none → t.outbuf = s.outbuf
  source : t.task.st.sourceId = s.task.st.sourceId
  host : t.host = s.host
  stdout : t.stdout = s.stdout
  inbuf : t.task.inbuf = s.task.inbuf

/-- The machine is the same, except for places of the data and return stack that hold nothing. -/
structure Twin (s t : VM) : Prop where
  eq : t = s.setTask { s.task with s := t.task.s, r := t.task.r }
  data : LikeStack t.task.s s.task.s
  ret : LikeStack t.task.r s.task.r

theorem Spec.LikeStack.calm' {α : Type} {a b : Stack α} (h : LikeStack a b) (hb : Calm b) : Calm a := by
  refine ⟨?_, by rw [h.slots _ (.inr (by decide)), h.canary]; exact hb.over,
    by rw [h.slots _ (.inr (by decide)), h.canary]; exact hb.under⟩
  rw [Stack.items_length, h.len, ← Stack.items_length]; exact hb.depth

theorem Twin.refl (s : VM) : Twin s s :=
  ⟨(VM.setTask_task s).symm, ⟨rfl, rfl, fun _ _ => rfl⟩, ⟨rfl, rfl, fun _ _ => rfl⟩⟩

theorem Spec.Leads.trans {cfg : Cfg} {depth : Nat} {s t u : VM} (h : Leads cfg depth s t) (k : Leads cfg depth t u) :
    Leads cfg depth s u := by
  obtain ⟨n, m, h⟩ := h
  obtain ⟨n', m', k⟩ := k
  refine ⟨n' + n, m + m', fun fuel => ?_⟩
  rw [← Nat.add_assoc, h, Nat.add_right_comm, k, Nat.add_assoc]

/-- Compiling the body of a definition, from the text before it to the text after it. -/
def BodyCompiles (cfg : Cfg) (depth : Nat) (s : VM) (t2 t3 : List Char) (items : List Item) : Prop :=
  ∀ (s1 : VM) (x y : Buf) (pre tk : List Char) (wp : Nat), Typing s1 → s1.refs = s.refs →
    (∀ nm r, Newest s nm r → Newest s1 nm r) →
    (∀ (i : Nat) (w : Word), s.wl.words[i]? = some w → s1.wl.words[i]? = some w) → baseOf s1 = baseOf s →
    s1.task.s = s.task.s → s1.task.r = s.task.r → s1.ds.start = s.ds.start → s1.ds.cap = s.ds.cap →
    (∀ z, z < s.ds.here → s1.ds.bytes z = s.ds.bytes z) → s.ds.here ≤ s1.ds.here →
    Gens cfg.overflowChecks s1.refs s1.wl s1.task.c s1.ds.here items x y → Kept s1.task.c s1 x →
    inputBuffer s1.task = .ok (some (pre ++ t2)) → byteLen (pre ++ t2) < 2 ^ 63 →
    ∃ s2 pre' tk' wp', Twin s1 s2 ∧ pre ++ t2 = pre' ++ t3 ∧ Kept s1.task.c s1 y ∧
      Leads cfg (depth + 2) ((s1.seen (byteLen pre) tk wp).code x) ((s2.seen (byteLen pre') tk' wp').code y)

/-- A definition read from text is compiled if its body is, and then the machine waits for more. -/
theorem definition_body {cfg : Cfg} {depth lv : Nat} {s : VM} (hL : Listening s) (hC : Compiler s.refs lv s.wl)
    (hsz : s.wl.words.length < 2 ^ 64) {pre text name rest tc ts t1 t2 t3 : List Char} {ic is : Nat} {wc ws : Word}
    {p : Stmt} (hin : Reading s.task pre text) (hr1 : Reads text tc t1) (hr2 : Reads t1 name t2) (hr3 : Reads t3 ts rest)
    (n1 : Newest s (utf8 tc) (some ic)) (n2 : s.wl.words[ic]? = some wc) (n3 : wc.action = .core .colon)
    (n4 : wc.isCompileOnly = false) (m1 : Newest s (utf8 ts) (some is)) (m2 : s.wl.words[is]? = some ws)
    (m3 : ws.action = .core .semicolon) (m4 : ws.isImmediate = true)
    (hbody : BodyCompiles cfg depth s t2 t3 (p.items s.refs lv)) {dfa : Nat}
    (hdfa : dfa = roundUp8 (s.ds.here + 8 + (utf8 (name.map lowerChar)).length))
    (hp : Compilable s p dfa) :
    ∃ t pre', Listening t ∧ Reading t.task pre' rest ∧ Defining s (utf8 (name.map lowerChar)) lv p dfa t ∧
      Leads cfg (depth + 2) s t := by
  obtain ⟨b1, rfl, hb1, hne1, hnb1, he1⟩ := hr1
  obtain ⟨b3, rfl, hb3, hne3, hnb3, he3⟩ := hr3
  have hroom := hp.room
  have hnext := p.le_next dfa
  obtain ⟨hin1, hin2, hin3⟩ := hin
  obtain ⟨tk0, htk⟩ := Option.isSome_iff_exists.1 hL.token
  have hself : s.seen (byteLen pre) tk0 s.task.st.wp = s := by rw [← hin2]; exact s.seen_self tk0 htk
  -- reading `:`
  have hp1 := seen_parseWord (x := (s.ds, s.task.c)) (tk := tk0) (wp := s.task.st.wp) hin1 hin3 hb1 hne1 hnb1 he1
  have ecode : ∀ n tk wp, (s.seen n tk wp).code (s.ds, s.task.c) = s.seen n tk wp := by
    intro n tk wp
    have := (s.seen n tk wp).code_self
    rw [VM.seen_task] at this
    exact this
  rw [ecode, ecode, hself] at hp1
  have ea : (pre ++ (b1 ++ tc)) ++ t1 = pre ++ (b1 ++ (tc ++ t1)) := by simp
  -- what `:` does
  obtain ⟨o, d, mid, rfl, hH, ho, hcol⟩ := colon_ok (c := ⟨cfg, execWord cfg (depth + 1)⟩) (tc := tc) (ic := ic) hL
    (pre := pre ++ (b1 ++ tc)) (by rw [ea]; exact hin1) (by rw [ea]; exact hin3) hr2 (by omega)
  rw [← hdfa] at hcol
  generalize hnm : utf8 (name.map lowerChar) = nm at *
  have hN : Named s nm dfa d := by rw [hdfa]; exact hH.named hL.space
  have hwl1 : ∀ o d b, (s.opened (colonList s nm dfa true) o d b).wl = colonList s nm dfa true := fun _ _ _ => rfl
  generalize hs1 : s.opened (colonList s nm dfa true) o d true = s1 at *
  have hds : s1.ds = d := by rw [← hs1]; rfl
  have hwl : s1.wl = colonList s nm dfa true := by rw [← hs1]; rfl
  have hrefs : s1.refs = s.refs := by rw [← hs1]; rfl
  have herr : s1.lastError = none := by rw [← hs1]; exact hL.noError
  have htask : s1.task = { s.task with st := { s.task.st with isCompiling := true } } := by rw [← hs1, VM.opened_task]
  have hlim : d.limit = s.ds.limit := by simp only [DataSpace.limit, hH.start, hH.cap]
  have hidle : Idle s1 := by
    have := hL.idle
    simp only [Idle, pc, htask, hds, hlim, hH.start] at this ⊢
    exact this
  have hspace : SoundSpace d := by
    have h1 := hL.space
    refine ⟨by rw [hH.start]; exact h1.pos, by rw [hH.start]; exact h1.aligned, by rw [hH.start, hH.cap]; exact h1.small, ?_, hH.inside⟩
    have h2 := hH.here; have h3 := hH.start; have h4 := h1.vars; have h5 := (roundUp8_le (s.ds.here + 8 + nm.length)).1
    simp only [DataSpace.here] at h2 h5
    omega
  have hT : Typing s1 := by
    refine ⟨by rw [htask], herr, hidle, ?_, by rw [hds]; exact hspace, ?_, ?_, ?_, ?_⟩
    · exact (show Named s nm dfa s1.ds by rw [hds]; exact hN).dict hL.dict hwl
    · rw [htask]; exact hL.data
    · rw [htask]; exact hL.ret
    · rw [htask]; exact hL.floats
    · rw [htask]; exact hL.control
  have hev1 : evalToken (ctx cfg (depth + 2)) (s.seen (byteLen (pre ++ (b1 ++ tc))) tc s.task.st.wp) =
      .ok ((), s1.seen (byteLen (pre ++ (b1 ++ tc) ++ mid)) (name.map lowerChar) ic) := by
    have hf := hL.dict.find ⟨hL.space.small, hL.space.inside⟩ (ctx cfg (depth + 2)) (utf8 tc)
    obtain ⟨r, f1, f2⟩ := hf
    obtain rfl := Newest.unique f2 n1
    have f3 := find_congr (s := s) (s' := (s.seen (byteLen (pre ++ (b1 ++ tc))) tc s.task.st.wp).setTkn none) rfl rfl f1
    have hic : (s.seen (byteLen (pre ++ (b1 ++ tc))) tc s.task.st.wp).task.st.isCompiling = false := by
      rw [VM.seen_task]; exact hL.interpreting
    simp only [evalToken, M.bind_apply, getSt_apply, hic, Bool.false_eq_true, if_false]
    unfold interpretToken
    rw [M.bind_ok (takeToken_run (t := tc) rfl), M.bind_ok f3]
    have e : ((s.seen (byteLen (pre ++ (b1 ++ tc))) tc s.task.st.wp).setTkn none).setTkn (some tc) =
      s.seen (byteLen (pre ++ (b1 ++ tc))) tc s.task.st.wp := rfl
    simp only [M.bind_apply, putToken_run, e]
    rw [wordAt_ok (s := s.seen (byteLen (pre ++ (b1 ++ tc))) tc s.task.st.wp) (w := wc) n2]
    simp only [n4, Bool.false_eq_true, if_false, ctx]
    rw [← ecode, execWord_seen n2, n3, ecode]
    exact hcol
  have ht1 : ∀ n tk wp, (s1.seen n tk wp).task = { s1.task with st := { s1.task.st with sourceIndex := n, wp := wp } } :=
    fun n tk wp => VM.seen_task ..
  have hturn1 := fun fuel => turn (cfg := cfg) (depth := depth + 2) hp1 rfl hne1 hev1 herr
    (by simp only [Idle, pc, VM.seen_ds]; rw [ht1]; exact hidle) (by rw [ht1]; exact hT.data) (by rw [ht1]; exact hT.ret)
    (by rw [ht1]; exact hT.control) (by rw [ht1]; exact hT.floats) fuel
  -- the body
  have hC1 : Compiler s1.refs lv s1.wl := by
    rw [hrefs]
    exact hC.mono (fun i w h => colonList_old hwl h) (by rw [hwl]; simp [colonList, Wordlist.push]; omega)
  have hN1 : Named s nm dfa s1.ds := by rw [hds]; exact hN
  have hold : ∀ (i : Nat) (w : Word), s.wl.words[i]? = some w → s1.wl.words[i]? = some w := fun i w h => colonList_old hwl h
  have hnew : ∀ nm r, Newest s nm r → Newest s1 nm r := fun nm r h => (hN1.newest_hidden hL.dict hwl nm r).2 h
  have hbase : baseOf s1 = baseOf s := by
    have h1 := hL.space.vars
    have : s.ds.here = s.ds.start + s.ds.len := rfl
    simp only [baseOf, DataSpace.baseAddr, hN1.start]
    rw [DataSpace.cellAt_congr fun z _ hz => hN1.below z (by omega)]
  have hd1 : s1.ds.here = dfa := by rw [hds, hH.here, hdfa]
  have hc1 : s1.task.c = s.task.c := by rw [htask]
  have hready : Ready s1.task.c [] (s1.ds, s1.task.c) dfa := by
    refine ⟨by rw [hds]; exact ⟨hspace.small, hspace.inside⟩, hd1, ?_, by simp, ?_⟩
    · have := holding_self s1.task.c
      rw [hc1, hL.balanced] at this
      rw [hc1, this]
      exact .refl _
    · exact hT.control.under
  have hlim1 : s1.ds.limit = s.ds.limit := by rw [hds, hlim]
  obtain ⟨y, hcomp, hat⟩ := compile_stmt (oc := cfg.overflowChecks) (base := s1.task.c) (a0 := dfa) hC1 p false [] (s1.ds, s1.task.c) dfa (Nat.le_refl _)
    hready (fun h => by cases h) ⟨fun i hi => (hp.calls i hi).imp fun w hw => ⟨hold i w hw.1, hw.2⟩, hp.leaves, by simpa using hp.height,
      by show _ ≤ s1.ds.limit; omega⟩
  have hk1 : Kept s1.task.c s1 (s1.ds, s1.task.c) := ⟨⟨rfl, rfl, fun _ _ => rfl⟩, Nat.le_refl _, [], dfa, hready⟩
  have eb : (pre ++ (b1 ++ tc) ++ mid) ++ t2 = pre ++ (b1 ++ (tc ++ (mid ++ t2))) := by simp
  have hin1' : inputBuffer s1.task = .ok (some (pre ++ (b1 ++ tc) ++ mid ++ t2)) := by
    rw [eb, htask]; exact hin1
  obtain ⟨s2, pre2, tk2, wp2, hTw, e2, hk2, hev2⟩ := hbody s1 (s1.ds, s1.task.c) y (pre ++ (b1 ++ tc) ++ mid) (name.map lowerChar) ic
    hT hrefs hnew hold hbase (by rw [htask]) (by rw [htask]) hN1.start (by rw [hds, hH.cap]) hN1.below
    (by rw [hd1]; have := hN1.fits; omega) (by rw [hd1, hrefs, ← hrefs]; exact hcomp.gens) hk1 hin1' (by rw [eb]; exact hin3)
  -- the machine after the body
  obtain ⟨sA, hsA, hA2⟩ : ∃ sA : VM, sA = s.setTask { s.task with s := s2.task.s, r := s2.task.r } ∧
      s2 = sA.opened (colonList s nm dfa true) o d true := by
    refine ⟨_, rfl, ?_⟩
    have e1 : ∀ T : Task, s1.setTask T = { (s.setTask { s.task with st := { s.task.st with isCompiling := true } }).setTask T with
        wl := colonList s nm dfa true, outbuf := o, ds := d } := by intro T; rw [← hs1]; rfl
    have e2 : ∀ T : Task, (s.setTask T).opened (colonList s nm dfa true) o d true =
        { (s.setTask T).setTask { T with st := { T.st with isCompiling := true } } with
          wl := colonList s nm dfa true, outbuf := o, ds := d } := by
      intro T; rw [VM.opened, VM.task_setTask]
    rw [e2, VM.setTask_setTask]
    have e3 := hTw.eq
    rw [e1, VM.setTask_setTask, htask] at e3
    exact e3
  have hcl2 : ∀ h, colonList sA nm dfa h = colonList s nm dfa h := by intro h; rw [hsA]; rfl
  have hA3 : sA.ds = s.ds := by rw [hsA]; rfl
  have hA4 : sA.task = { s.task with s := s2.task.s, r := s2.task.r } := by rw [hsA, VM.task_setTask]
  have hA5 : sA.lastError = none := by rw [hsA]; exact hL.noError
  have hA6 : sA.forward = [] := by rw [hsA]; exact hL.labels
  have hs2t : s2.task = { s1.task with s := s2.task.s, r := s2.task.r } := by
    have := congrArg VM.task hTw.eq
    rwa [VM.task_setTask] at this
  have hs2d : s2.ds = s1.ds := by rw [hTw.eq]; rfl
  have hs2w : s2.wl = s1.wl := by rw [hTw.eq]; rfl
  have hs2r : s2.refs = s1.refs := by rw [hTw.eq]; rfl
  have hcalm1 : Calm s2.task.s := hTw.data.calm' hT.data
  have hcalm2 : Calm s2.task.r := hTw.ret.calm' hT.ret
  have hst1 : LikeStack s2.task.s s.task.s := by have := hTw.data; rwa [htask] at this
  have hst2 : LikeStack s2.task.r s.task.r := by have := hTw.ret; rwa [htask] at this
  have hT2 : Typing s2 := by
    refine ⟨by rw [hs2t]; exact hT.compiling, by rw [hTw.eq]; exact herr, ?_, ?_, by rw [hs2d]; exact hT.space, hcalm1, hcalm2, ?_, ?_⟩
    · have e : pc s2 = pc s1 := by simp only [pc]; rw [hs2t]
      have := hidle
      rw [Idle, ← e, ← hs2d] at this
      exact this
    · exact hT.dict.congr hs2w hs2d
    · rw [hs2t]; exact hT.floats
    · rw [hs2t]; exact hT.control
  have hc2 : s2.task.c = s1.task.c := by rw [hs2t]
  have hk2' : Kept s2.task.c s2 y := by
    rw [hc2]
    exact ⟨by rw [hs2d, hc2]; exact hk2.same, by rw [hs2d]; exact hk2.here, hk2.ready⟩
  have hnew2 : ∀ nm r, Newest s nm r → Newest s2 nm r := fun nm r h =>
    (newest_same_words (s := s1) hs2w (fun i w _ => by rw [hs2d]) nm r).2 (hnew nm r h)
  -- reading `;`
  have hin2' : inputBuffer s2.task = .ok (some (pre2 ++ (b3 ++ (ts ++ rest)))) := by
    rw [← e2, ← hin1', hs2t]; rfl
  have hlt2 : byteLen (pre2 ++ (b3 ++ (ts ++ rest))) < 2 ^ 63 := by rw [← e2, eb]; exact hin3
  have hp3 := seen_parseWord (x := y) (tk := tk2) (wp := wp2) hin2' hlt2 hb3 hne3 hnb3 he3
  obtain ⟨a1, a2, a3⟩ := hcomp.ready.emit (by rw [hcomp.same.limit]; show _ ≤ s1.ds.limit; omega) (toCell s1.refs.exit)
  generalize hz : ((y.1.emit (toCell s1.refs.exit), y.2) : Buf) = z at a1 a2 a3
  have hev3 : evalToken (ctx cfg (depth + 2)) ((s2.seen (byteLen (pre2 ++ (b3 ++ ts))) ts wp2).code y) =
      .ok ((), ((sA.opened (colonList s nm dfa false) o d false).seen (byteLen (pre2 ++ (b3 ++ ts))) ts is).code z) := by
    have hc : ((s2.seen (byteLen (pre2 ++ (b3 ++ ts))) ts wp2).code y).task.st.isCompiling = true := by
      rw [VM.code_task, VM.seen_task]; exact hT2.compiling
    simp only [evalToken, M.bind_apply, getSt_apply, hc, if_true]
    rw [compileToken_found hT2.composing hk2' (hnew2 _ _ m1) (by rw [hs2w]; exact hold _ _ m2), m4]
    simp only [if_true, ctx]
    rw [execWord_seen (by rw [hs2w]; exact hold _ _ m2), m3]
    show semicolon _ _ = _
    have hcl : ¬ ((s2.seen (byteLen (pre2 ++ (b3 ++ ts))) ts is).code y).task.c.len ≠ 0 := by
      rw [VM.code_task]
      have := hcomp.ready.ctl.rep.1
      exact fun h => h (BitVec.eq_of_toNat_eq (by simpa using this))
    have hfw : ¬ ((s2.seen (byteLen (pre2 ++ (b3 ++ ts))) ts is).code y).forward ≠ [] := by
      have : s2.forward = [] := by rw [hA2]; exact hA6
      exact fun h => h this
    have hgen := gen_call (c := ⟨cfg, execWord cfg (depth + 1)⟩) (R := s1.refs) hcomp.ready (by rw [hcomp.same.limit]; show _ ≤ s1.ds.limit; omega) hC1.exit
      (s2.seen (byteLen (pre2 ++ (b3 ++ ts))) ts is) hs2r hs2w
    have hbody : semicolonBody ⟨cfg, execWord cfg (depth + 1)⟩ ((s2.seen (byteLen (pre2 ++ (b3 ++ ts))) ts is).code y) =
        .ok ((), ((sA.opened (colonList s nm dfa false) o d true).seen (byteLen (pre2 ++ (b3 ++ ts))) ts is).code z) := by
      unfold semicolonBody
      simp only [M.bind_apply, getVM_apply]
      rw [if_neg hcl, if_neg hfw]
      obtain ⟨w, w1, w2⟩ := hC1.exit
      have ew : wordAt s1.refs.exit ((s2.seen (byteLen (pre2 ++ (b3 ++ ts))) ts is).code y) =
        .ok (w, (s2.seen (byteLen (pre2 ++ (b3 ++ ts))) ts is).code y) := wordAt_ok (by rw [← hs2w] at w1; exact w1)
      simp only [Item.run, M.bind_apply, ew] at hgen
      have er : ((s2.seen (byteLen (pre2 ++ (b3 ++ ts))) ts is).code y).refs = s1.refs := hs2r
      rw [er]
      simp only [M.bind_apply, ew, hgen, hz, getWl_apply]
      rw [colonList_set s nm dfa true false ((s2.seen (byteLen (pre2 ++ (b3 ++ ts))) ts is).code z) (hs2w.trans hwl), hA2]
      rfl
    unfold semicolon
    rw [M.bind_ok hbody]
    simp only [leftBracket, modSt_apply]
    rw [VM.opened_code_mode]
  have ht3 : (((sA.opened (colonList s nm dfa false) o d false).seen (byteLen (pre2 ++ (b3 ++ ts))) ts is).code z).task =
      { s.task with s := s2.task.s, r := s2.task.r, c := z.2, st := { s.task.st with isCompiling := false, sourceIndex := byteLen (pre2 ++ (b3 ++ ts)), wp := is } } := by
    rw [VM.code_task, VM.seen_task, VM.opened_task, hA4]
  have hz1 : z.1.start = s.ds.start := by rw [a2.start, hcomp.same.start, hds, hH.start]
  have hz2 : z.1.cap = s.ds.cap := by rw [a2.cap, hcomp.same.cap, hds, hH.cap]
  have hz3 : Calm z.2 := a1.calm hT.control
  have hz4 : z.1.here = p.next dfa + 8 := a1.here
  have hN3 : Named s nm dfa z.1 := hN.congr (by rw [hz1, hN.start])
    (fun x hx => by rw [a2.bytes x (by omega), hcomp.same.bytes x hx, hds]) (by omega)
  generalize ht : ((sA.opened (colonList s nm dfa false) o d false).seen (byteLen (pre2 ++ (b3 ++ ts))) ts is).code z = t at ht3 hev3
  have tds : t.ds = z.1 := by rw [← ht]; rfl
  have twl : t.wl = colonList s nm dfa false := by rw [← ht]; rfl
  have tidle : Idle t := by
    have := hL.idle
    simp only [Idle, pc, ht3, tds, DataSpace.limit, hz1, hz2] at this ⊢
    exact this
  have terr : t.lastError = none := by rw [← ht]; exact hA5
  have tN : Named s nm dfa t.ds := by rw [tds]; exact hN3
  have hturn3 := fun fuel => turn (cfg := cfg) (depth := depth + 2) hp3 rfl hne3 hev3 terr tidle (by rw [ht3]; exact hcalm1)
    (by rw [ht3]; exact hcalm2) (by rw [ht3]; exact hz3) (by rw [ht3]; exact hL.floats) fuel
  have ec : (pre2 ++ (b3 ++ ts)) ++ rest = pre2 ++ (b3 ++ (ts ++ rest)) := by simp
  refine ⟨t, pre2 ++ (b3 ++ ts), ?_, ?_, ?_, ?_⟩
  · refine ⟨by rw [ht3], terr, by rw [← ht]; rfl, tidle, tN.dict hL.dict twl, ?_, by rw [ht3]; exact hcalm1, by rw [ht3]; exact hcalm2,
      by rw [ht3]; exact hL.floats, by rw [ht3]; exact hz3, ?_, by rw [← ht]; exact hA6⟩
    · have h1 := hspace
      rw [tds]
      refine ⟨by rw [hz1]; exact hL.space.pos, by rw [hz1]; exact hL.space.aligned, by rw [hz1, hz2]; exact hL.space.small, ?_, a1.space.inside⟩
      have h2 := hL.space.vars
      have h3 := hN3.fits
      have h4 := hN3.top
      simp only [DataSpace.here] at h3 h4 ⊢
      omega
    · rw [ht3]
      exact items_eq_iff.2 a1.ctl.rep
  · exact ⟨by rw [ht3, ec, ← e2, eb]; exact hin1, by rw [ht3], by rw [ec]; exact hlt2⟩
  · refine ⟨by rw [← ht, hsA]; rfl, twl, by rw [← ht, hsA]; rfl, tN, by rw [tds, hz2], ?_, by rw [tds, hz4],
      ⟨by rw [ht3]; exact hst1, by rw [ht3]; exact hst2, by rw [ht3]⟩, by simp only [pc]; rw [ht3], by rw [← ht]; exact ho, by rw [ht3],
      by rw [← ht, hsA]; rfl, by rw [← ht, hsA]; rfl, by rw [ht3]⟩
    rw [tds]
    refine ⟨?_, ?_⟩
    · rw [hrefs] at hat
      exact hat.congr fun n _ h2 => a2.bytes n (by simpa using h2)
    · rw [Stmt.place_next, ← hrefs]
      exact cellIs_of (by rw [← hz]; exact a3) (hC1.call_lt hC1.exit)
  · have ecode1 : ∀ n tk wp, (s1.seen n tk wp).code (s1.ds, s1.task.c) = s1.seen n tk wp := by
      intro n tk wp
      have := (s1.seen n tk wp).code_self
      rw [VM.seen_task] at this
      exact this
    rw [ecode1] at hev2
    exact (Spec.Leads.trans ⟨2, 1, hturn1⟩ hev2).trans ⟨2, 1, hturn3⟩

/-- A definition read from text is compiled, and then the machine waits for more. -/
theorem definition_compiles {cfg : Cfg} {depth lv : Nat} {s : VM} (hL : Listening s) (hC : Compiler s.refs lv s.wl)
    (hsz : s.wl.words.length < 2 ^ 64) (hfl : s.refs.flit ≠ 0) {pre text name rest : List Char} {p : Stmt}
    (hin : Reading s.task pre text) (hdef : Definition cfg.fops s text name (p.items s.refs lv) rest) {dfa : Nat}
    (hdfa : dfa = roundUp8 (s.ds.here + 8 + (utf8 (name.map lowerChar)).length))
    (hp : Compilable s p dfa) :
    ∃ t pre', Listening t ∧ Reading t.task pre' rest ∧ Defining s (utf8 (name.map lowerChar)) lv p dfa t ∧
      Leads cfg (depth + 2) s t := by
  obtain ⟨tc, ts, t1, t2, t3, ic, is, wc, ws, hr1, hr2, hwr, hr3, n1, n2, n3, n4, m1, m2, m3, m4⟩ := hdef.parts
  refine definition_body hL hC hsz hin hr1 hr2 hr3 n1 n2 n3 n4 m1 m2 m3 m4 ?_ hdfa hp
  intro s1 x y pre tk wp hT hrefs hnew hold hbase _ _ _ _ _ _ hg hk hi hlt
  obtain ⟨pre2, tk2, wp2, e2, hk2, hev2⟩ := source_compile (depth := depth) hT (by rw [hrefs]; exact hfl)
    (hwr.mono hnew hold hbase) (tk := tk) (wp := wp) hg hk hi hlt
  refine ⟨s1, pre2, tk2, wp2, .refl s1, e2, hk2, 1 + (p.items s.refs lv).length, 1, fun fuel => ?_⟩
  rw [← Nat.add_assoc]; exact hev2 fuel

end Verif
