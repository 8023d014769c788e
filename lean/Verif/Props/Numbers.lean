import Verif.Lemmas.NumberWords

/-!
# C13 – C17: number tokens and number output
-/

namespace Verif
open Spec Stack DataSpace

/-- The number base in force: the cell `base` of the data space. -/
def Spec.currentBase (s : VM) : Cell := s.ds.cellAt s.ds.baseAddr

/-- `tok` is the token just read and the dictionary has no such word. -/
structure Spec.UnknownToken (c : Ctx) (s : VM) (tok : List Char) : Prop where
  token : s.tkn = some tok
  notWord : find c (utf8 tok) s = .ok (none, s)

/-! ## C13: integers -/

/-- C13. The integer recogniser accepts exactly the integer tokens of the grammar, with the signed
place value modulo 2^64, in any base. -/
theorem C13_integer_grammar (base : Cell) (tok : List Byte) (v : Cell) :
    integerValue base tok = some v ↔ IntegerToken base.toInt tok v := integerValue_iff base tok v

/-- C13. Interpreting a token that is no word and is an integer of value `v` pushes `v`, clears the
error and changes nothing else. -/
theorem C13_interpret_integer (c : Ctx) (s : VM) (tok : List Char) (v : Cell) (l : List Cell)
    (hd : SoundSpace s.ds) (hu : UnknownToken c s tok) (hc : s.task.st.isCompiling = false)
    (hi : s.task.s.items = l) (hl : l.length < 255)
    (hv : IntegerToken (currentBase s).toInt (utf8 tok) v) :
    ∃ st', interpretToken c s = .ok ((), { withData s st' with lastError := none }) ∧
      st'.items = v :: l := by
  have hr := items_eq_iff.1 hi
  refine ⟨_, ?_, items_eq_iff.2 (hr.toPush hl v).rep⟩
  rw [interpretToken_none hu.token hu.notWord]
  rw [evaluateNumber_int (s := { s with tkn := none }) hd ((integerValue_iff _ _ _).2 hv) hc]
  have ht := hu.token
  cases s
  simp only at ht
  subst ht
  rfl

/-- C13. A token that is no word, no integer and no float is an undefined word: error -13. -/
theorem C13_interpret_undefined (c : Ctx) (s : VM) (tok : List Char)
    (hd : SoundSpace s.ds) (hu : UnknownToken c s tok)
    (hi : ∀ v, ¬ IntegerToken (currentBase s).toInt (utf8 tok) v)
    (hf : ∀ v, ¬ FloatToken c.cfg.fops (utf8 tok) v) :
    ∃ e, interpretToken c s = abortWith c .undefinedWord { s with lastError := some e } := by
  have h1 : integerValue (s.ds.cellAt s.ds.baseAddr) (utf8 tok) = none := by
    cases h : integerValue (s.ds.cellAt s.ds.baseAddr) (utf8 tok) with
    | none => rfl
    | some v => exact absurd ((integerValue_iff _ _ _).1 h) (hi v)
  cases h2 : floatValue c.cfg.fops (utf8 tok) with
  | ok v => exact absurd ((floatValue_iff _ _ _).1 h2) (hf v)
  | error e =>
    refine ⟨e, ?_⟩
    rw [interpretToken_none hu.token hu.notWord]
    rw [evaluateNumber_none (s := { s with tkn := none }) hd h1 h2]
    have ht := hu.token
    cases s
    simp only at ht
    subst ht
    rfl

example : IntegerToken 10 (ascii "-12") (wrap (-12)) :=
  .digits (pre := []) (sg := [45]) (bs := [49, 50]) (ds := [1, 2]) .none .minus
    (.cons (.inl rfl) (.cons (.inl rfl) .nil)) (by simp)

example : IntegerToken 10 (ascii "$Ff") (wrap 255) :=
  .digits (pre := [36]) (sg := []) (bs := [70, 102]) (ds := [15, 15]) .hex .none
    (.cons (.inr rfl) (.cons (.inl rfl) .nil)) (by simp)

example : IntegerToken 10 (ascii "'A'") (wrap 65) := .quoted 65

example (c : Ctx) : SoundSpace (VM.blank 4096 4096).ds ∧
    UnknownToken c { VM.blank 4096 4096 with tkn := some "12".toList } "12".toList ∧
    (VM.blank 4096 4096).task.st.isCompiling = false ∧ (VM.blank 4096 4096).task.s.items = [] :=
  ⟨⟨by decide, by decide, by decide, by decide, by decide⟩, ⟨rfl, rfl⟩, rfl, rfl⟩

/-! ## C14: at least one digit -/

/-- The tokens made of a base prefix and a sign only. -/
def Spec.bareTokens : List (List Byte) :=
  [[], ascii "+", ascii "-", ascii "%", ascii "%+", ascii "%-", ascii "#", ascii "#+", ascii "#-",
    ascii "$", ascii "$+", ascii "$-"]

/-- C14 is false: a base prefix or a sign on its own is accepted, as 0, in every base. -/
theorem C14_refuted (base : Cell) : ∀ tok ∈ bareTokens, IntegerToken base.toInt tok 0 := by
  intro tok ht
  rw [← integerValue_iff]
  simp only [bareTokens, List.mem_cons, List.not_mem_nil, or_false] at ht
  rcases ht with h | h | h | h | h | h | h | h | h | h | h | h <;> subst h <;> rfl

/-- C14 is false at the level of the interpreter: `$` as a token that is no word pushes 0 and is not an
undefined word. -/
theorem C14_refuted_interpret (c : Ctx) (s : VM) (l : List Cell) (hd : SoundSpace s.ds)
    (hu : UnknownToken c s ['$']) (hc : s.task.st.isCompiling = false)
    (hi : s.task.s.items = l) (hl : l.length < 255) :
    ∃ st', interpretToken c s = .ok ((), { withData s st' with lastError := none }) ∧
      st'.items = 0 :: l :=
  C13_interpret_integer c s ['$'] 0 l hd hu hc hi hl
    (C14_refuted (currentBase s) [36] (by simp [bareTokens, ascii, utf8, utf8Char]; decide))

/-- C14, the part that holds: every other integer token contains a digit below the base it is read in,
or is a quoted character. -/
theorem C14_digit_partial (base : Int) (tok : List Byte) (v : Cell) (h : IntegerToken base tok v)
    (hn : tok ∉ bareTokens) : (∃ b : Byte, tok = [39, b, 39]) ∨ ∃ b ∈ tok, ∃ d, IsDigit b d := by
  cases h with
  | quoted b => exact .inl ⟨b, rfl⟩
  | @digits pre sg bs b σ ds hp hs hd hlt =>
    right
    cases hd with
    | nil =>
      exfalso
      apply hn
      cases hp <;> cases hs <;> decide
    | @cons b d bs ds hb _ => exact ⟨b, by simp, d, hb⟩

example : ascii "17" ∉ bareTokens := by decide

/-! ## C15, C16: print, read back -/

/-- With base 2, 8, 10 or 16, `n w .r` appends blanks and then a text to the output: the
text is the number in that base, and the number of bytes is `w`, or the length of the text if that is more. The width must not be within 65 of the
least cell (see `C16_width_refuted`). -/
theorem dotR_spec (c : Ctx) (s : VM) (n w : Cell) (l : List Cell) (o : List Byte)
    (hd : SoundSpace s.ds) (hb : currentBase s ∈ [2, 8, 10, 16])
    (hi : s.task.s.items = w :: n :: l) (ho : s.outbuf = some o) (hw : -2 ^ 63 + 65 ≤ w.toInt) :
    ∃ st' pad txt, dotR c s = .ok ((), { withData s st' with
        hldbuf := txt, outbuf := some (o ++ (pad ++ txt)) }) ∧ st'.items = l ∧
      (∀ b ∈ pad, b = 32) ∧ fmtBase (currentBase s) n = some txt ∧ txt ≠ [] ∧
      ((pad ++ txt).length : Int) = max w.toInt txt.length := by
  have hfmt : ∃ txt, fmtBase (currentBase s) n = some txt := by
    simp only [List.mem_cons, List.not_mem_nil, or_false] at hb
    rcases hb with h | h | h | h <;> rw [h] <;> simp [fmtBase]
  obtain ⟨txt, ht⟩ := hfmt
  obtain ⟨t1, t2, t3⟩ := fmtBase_token _ _ _ ht
  obtain ⟨st', h1, h2⟩ := dotR_ok (c := c) hd hi ho ht
    (padding_ok (w := w) t3 (by simp at hw ⊢; omega))
  refine ⟨st', _, txt, h1, h2, ?_, ht, ?_, ?_⟩
  · intro b hb
    exact (List.mem_replicate.1 hb).2
  · rintro rfl; simp at t2
  · simp only [List.length_append, List.length_replicate]
    omega

/-- C16 fails for widths at the bottom of the range: the subtraction `w - len` overflows. With
overflow checks the program stops; without them it wraps, and for the least cell `.r` of a
one-character number writes 2^63 - 1 blanks. -/
theorem C16_width_refuted (oc : Bool) :
    padding oc (BitVec.ofInt 64 (-2 ^ 63)) 1 =
      if oc then .error .panic else .ok (List.replicate (2 ^ 63 - 1) 32) := by
  cases oc
  · simp only [padding]
    have : isub false (BitVec.ofInt 64 (-2 ^ 63)) (toCell 1) = .ok (BitVec.ofNat 64 (2 ^ 63 - 1)) :=
      rfl
    rw [this]
    have h2 : (BitVec.ofNat 64 (2 ^ 63 - 1)).toInt.toNat = 2 ^ 63 - 1 := by decide
    simp only [Except.ok_bind', h2]
    rfl
  · rfl

/-- The text `.r` prints contains no blank and no control character, so that reading it back it is
one token. -/
theorem fmtBase_printable (base n : Cell) (txt : List Byte) (h : fmtBase base n = some txt) :
    ∀ b ∈ txt, 33 ≤ b.toNat ∧ b.toNat < 127 := by
  obtain ⟨t, _, _⟩ := fmtBase_token base n txt h
  have hdig : ∀ (bs : List Byte) (ds : List Nat), DigitString bs ds →
      ∀ b ∈ bs, 33 ≤ b.toNat ∧ b.toNat < 127 := by
    intro bs ds hd
    induction hd with
    | nil => simp
    | cons hb _ ih =>
      intro x hx
      simp only [List.mem_cons] at hx
      rcases hx with rfl | hx
      · have := (digit_iff _ _).2 hb
        have hall : ∀ b : BitVec 8, Parser.digit b ≠ none → 33 ≤ b.toNat ∧ b.toNat < 127 := by
          decide +kernel
        exact hall x (by rw [this]; simp)
      · exact ih x hx
  have hpos : ∀ b n, 2 ≤ b → b ≤ 16 → ∀ x ∈ digits b n, 33 ≤ x.toNat ∧ x.toNat < 127 := by
    intro b n h1 h2
    obtain ⟨ds, hd, _⟩ := digits_spec b n h1 h2
    exact hdig _ _ hd
  simp only [fmtBase] at h
  split at h
  · simp only [Option.some.injEq] at h; rw [← h]; exact hpos 2 _ (by omega) (by omega)
  split at h
  · simp only [Option.some.injEq] at h; rw [← h]; exact hpos 8 _ (by omega) (by omega)
  split at h
  · simp only [Option.some.injEq] at h; rw [← h]
    simp only [fmtDec]
    split
    · intro x hx
      simp only [List.mem_cons] at hx
      rcases hx with rfl | hx
      · decide
      · exact hpos 10 _ (by omega) (by omega) x hx
    · exact hpos 10 _ (by omega) (by omega)
  split at h
  · simp only [Option.some.injEq] at h; rw [← h]; exact hpos 16 _ (by omega) (by omega)
  · simp at h

/-- C15. With base 2, 8, 10 or 16 and any width not within 65 of the least cell, `n w .r` takes both
and writes blanks and a text `txt` of printable characters without a blank. The text is an
integer token of value `n` in that base. A machine with that base which later meets the text as a
token that is no word pushes `n`. -/
theorem C15_round_trip (c : Ctx) (s : VM) (n w : Cell) (l : List Cell) (o : List Byte)
    (hd : SoundSpace s.ds) (hb : currentBase s ∈ [2, 8, 10, 16])
    (hi : s.task.s.items = w :: n :: l) (ho : s.outbuf = some o) (hw : -2 ^ 63 + 65 ≤ w.toInt) :
    ∃ p, primOf ".r" = some p ∧ ∃ st' pad txt,
      action c p s = .ok ((), { withData s st' with
        hldbuf := txt, outbuf := some (o ++ (pad ++ txt)) }) ∧ st'.items = l ∧
      (∀ b ∈ pad, b = 32) ∧ txt ≠ [] ∧ (∀ b ∈ txt, 33 ≤ b.toNat ∧ b.toNat < 127) ∧
      IntegerToken (currentBase s).toInt txt n ∧
      ∀ (s2 : VM) (tok : List Char) (l2 : List Cell), utf8 tok = txt →
        currentBase s2 = currentBase s → SoundSpace s2.ds → UnknownToken c s2 tok →
        s2.task.st.isCompiling = false → s2.task.s.items = l2 → l2.length < 255 →
        ∃ st2, interpretToken c s2 = .ok ((), { withData s2 st2 with lastError := none }) ∧
          st2.items = n :: l2 := by
  obtain ⟨st', pad, txt, h1, h2, h3, h4, h5, _⟩ := dotR_spec c s n w l o hd hb hi ho hw
  obtain ⟨t, _, _⟩ := fmtBase_token _ n txt h4
  refine ⟨_, rfl, st', pad, txt, h1, h2, h3, h5, fmtBase_printable _ _ _ h4, t, ?_⟩
  intro s2 tok l2 htok hbase hd2 hu hc hi2 hl
  exact C13_interpret_integer c s2 tok n l2 hd2 hu hc hi2 hl (by rw [hbase, htok]; exact t)

/-- C16. `n w .r` writes exactly `w` bytes, or the text of the number if that is longer; the blanks
come first. Missing: widths within 65 of the least cell, where it is false. -/
theorem C16_width_partial (c : Ctx) (s : VM) (n w : Cell) (l : List Cell) (o : List Byte)
    (hd : SoundSpace s.ds) (hb : currentBase s ∈ [2, 8, 10, 16])
    (hi : s.task.s.items = w :: n :: l) (ho : s.outbuf = some o) (hw : -2 ^ 63 + 65 ≤ w.toInt) :
    ∃ p, primOf ".r" = some p ∧ ∃ st' pad txt,
      action c p s = .ok ((), { withData s st' with
        hldbuf := txt, outbuf := some (o ++ (pad ++ txt)) }) ∧
      (∀ b ∈ pad, b = 32) ∧ (∀ b ∈ txt, b ≠ 32) ∧ txt ≠ [] ∧
      ((pad ++ txt).length : Int) = max w.toInt txt.length := by
  obtain ⟨st', pad, txt, h1, h2, h3, h4, h5, h6⟩ := dotR_spec c s n w l o hd hb hi ho hw
  refine ⟨_, rfl, st', pad, txt, h1, h3, ?_, h5, h6⟩
  rintro b hb rfl
  have := fmtBase_printable _ _ _ h4 32 hb
  simp at this

/-- The hypotheses hold of a fresh machine in decimal given two numbers. -/
example : currentBase (VM.blank 4096 4096) = 10 ∧ SoundSpace (VM.blank 4096 4096).ds ∧
    (withData (VM.blank 4096 4096) ((Stack.new 0).push2 5 3)).task.s.items = [3, 5] ∧
    (VM.blank 4096 4096).outbuf = some [] :=
  ⟨by decide, ⟨by decide, by decide, by decide, by decide, by decide⟩, rfl, rfl⟩

example : fmtBase 16 (wrap (-1)) = some (ascii "FFFFFFFFFFFFFFFF") := by
  simp only [fmtBase, digits]
  decide +kernel

example : fmtBase 10 (wrap (-120)) = some (ascii "-120") := by decide +kernel

/-! ## C17: floats -/

/-- C17. The float recogniser accepts exactly the float tokens of the grammar, with the value the
grammar gives, whatever the host's floating point operations are. -/
theorem C17_float_grammar (f : FloatOps) (tok : List Byte) (v : F64) :
    floatValue f tok = .ok v ↔ FloatToken f tok v := floatValue_iff f tok v

/-- C17. Interpreting a token that is no word, no integer, and a float of value `v` pushes `v` on the float
stack, clears the error and changes nothing else. -/
theorem C17_interpret_float (c : Ctx) (s : VM) (tok : List Char) (v : F64) (l : List F64)
    (hd : SoundSpace s.ds) (hu : UnknownToken c s tok) (hc : s.task.st.isCompiling = false)
    (hi : s.task.f.items = l) (hl : l.length < 255) (hflit : s.refs.flit ≠ 0)
    (hn : ∀ v, ¬ IntegerToken (currentBase s).toInt (utf8 tok) v)
    (hv : FloatToken c.cfg.fops (utf8 tok) v) :
    ∃ ft', interpretToken c s =
        .ok ((), { s.setTask { s.task with f := ft' } with lastError := none }) ∧
      ft'.items = v :: l := by
  have hr := items_eq_iff.1 hi
  have h1 : integerValue (s.ds.cellAt s.ds.baseAddr) (utf8 tok) = none := by
    cases h : integerValue (s.ds.cellAt s.ds.baseAddr) (utf8 tok) with
    | none => rfl
    | some v => exact absurd ((integerValue_iff _ _ _).1 h) (hn v)
  refine ⟨_, ?_, items_eq_iff.2 (hr.toPush hl v).rep⟩
  rw [interpretToken_none hu.token hu.notWord]
  rw [evaluateNumber_float (s := { s with tkn := none }) hd h1 ((floatValue_iff _ _ _).2 hv) hflit hc]
  have ht := hu.token
  cases s
  simp only at ht
  subst ht
  rfl

/-- C17. No float token is an integer token in a base up to
14 (from base 15 on, `1E2` is an integer). -/
theorem C17_not_integer (f : FloatOps) (base : Int) (hb : base ≤ 14) (tok : List Byte) (v : F64)
    (h : FloatToken f tok v) (w : Cell) (hw : IntegerToken base tok w) : False := by
  cases h with
  | @mk sg ip fr esg ebs e sign esign ids eds fv hs hi hne hil hf he hes hed hel =>
    have hmem : e ∈ sg ++ ip ++ fr ++ [e] ++ esg ++ ebs := by simp
    have hip : ∃ b r, ip = b :: r ∧ b ≠ 39 ∧ b ≠ 36 ∧ b ≠ 43 ∧ b ≠ 45 := by
      match ids, hne with
      | d :: ds, _ =>
        obtain ⟨h1, _⟩ := hi
        cases h1 with
        | cons hb _ =>
          have := isDigit_ne hb
          exact ⟨_, _, rfl, this.2.2.2.2.2.1, this.2.2.1, this.2.2.2.1, this.2.2.2.2.1⟩
    obtain ⟨b0, r0, rfl, hq, hdl, hpl, hmi⟩ := hip
    generalize htok : sg ++ (b0 :: r0) ++ fr ++ [e] ++ esg ++ ebs = tok at hw hmem
    cases hw with
    | quoted b => cases hs <;> simp_all
    | @digits pre sg' bs b σ ds hp hs' hd hlt =>
      have hnp : b ≤ 14 := by
        cases hp with
        | none => exact hb
        | binary => omega
        | decimal => omega
        | hex => cases hs <;> simp_all
      have hin : e ∈ bs := by
        have hne' : e ≠ 37 ∧ e ≠ 35 ∧ e ≠ 36 ∧ e ≠ 43 ∧ e ≠ 45 := by
          rcases he with rfl | rfl <;> decide
        cases hp <;> cases hs' <;> simp_all
      have hval : ∀ (bs : List Byte) (ds : List Nat), DigitString bs ds → e ∈ bs → 14 ∈ ds := by
        intro bs ds hd
        induction hd with
        | nil => simp
        | @cons x d bs ds hx _ ih =>
          intro hm
          simp only [List.mem_cons] at hm ⊢
          rcases hm with rfl | hm
          · left
            have hx' := (digit_iff _ _).2 hx
            rcases he with rfl | rfl
            · have : Parser.digit 69 = some 14 := by decide
              rw [this] at hx'; simpa using hx'
            · have : Parser.digit 101 = some 14 := by decide
              rw [this] at hx'; simpa using hx'
          · right; exact ih hm
      have := hlt 14 (hval bs ds hd hin)
      omega

example (f : FloatOps) : ∃ v, FloatToken f (ascii "-12.5e3") v :=
  ⟨_, .mk (sg := [45]) (ip := [49, 50]) (fr := [46, 53]) (e := 101) (esg := []) (ebs := [51])
    (ids := [1, 2]) (eds := [3]) .minus
    ⟨.cons (.inl rfl) (.cons (.inl rfl) .nil), by decide⟩ (by simp) (by decide)
    (.some (ds := [5]) ⟨.cons (.inl rfl) .nil, by decide⟩ (by decide)) (.inr rfl) .none
    ⟨.cons (.inl rfl) .nil, by decide⟩ (by decide)⟩

end Verif
