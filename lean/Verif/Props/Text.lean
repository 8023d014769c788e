import Verif.Lemmas.Text

/-!
# C18, C19: tokens, delimited text, comments
-/

namespace Verif
open Spec Stack

/-! ## C18 -/

/-- After the last token, `parse-word` yields empty tokens for ever. -/
theorem readTokens_blank : ∀ (k : Nat) (s : VM) (pre bs old : List Char),
    Reading s.task pre bs → s.tkn = some old → (∀ ch ∈ bs, Blank ch) →
    ∃ n x, readTokens k s = .ok (List.replicate k [], (s.setTask (atPosition s.task n)).setTkn x) := by
  intro k
  induction k with
  | zero =>
    intro s pre bs old hr ht hb
    refine ⟨s.task.st.sourceIndex, s.tkn, ?_⟩
    have : s.setTask (atPosition s.task s.task.st.sourceIndex) = s := VM.setTask_task s
    rw [this]; rfl
  | succ k ih =>
    intro s pre bs old hr ht hb
    have hp := parseWord_reading hr ht (tok := []) (n := byteLen bs)
      (fun _ => scanWord_end bs hb) (by rintro rfl; simp [byteLen])
    have hr' := reading_advance (t := s.task) (pre := pre) (a := bs) (rest := [])
      (by simpa using hr)
    obtain ⟨n, x, h⟩ := ih ((s.setTask (atPosition s.task (byteLen pre + byteLen bs))).setTkn (some []))
      (pre ++ bs) [] [] (by vm_simp; exact hr') rfl (by simp)
    refine ⟨n, x, ?_⟩
    vm_simp [readTokens, hp, h]
    rfl

/-- C18. From any position in any text, repeated `parse-word` yields exactly the tokens of the rest of
the text, in order, and then empty tokens for ever; only the input position and the token change. -/
theorem C18_tokens : ∀ (toks : List (List Char)) (k : Nat) (s : VM) (pre rest old : List Char),
    Reading s.task pre rest → s.tkn = some old → Tokens rest toks →
    ∃ n x, readTokens (toks.length + k) s = .ok (toks ++ List.replicate k [],
      { s.setTask (atPosition s.task n) with tkn := x }) := by
  intro toks
  induction toks with
  | nil =>
    intro k s pre rest old hr ht htk
    cases htk with
    | blank hb =>
      obtain ⟨n, x, h⟩ := readTokens_blank k s pre rest old hr ht hb
      refine ⟨n, x, ?_⟩
      rw [List.length_nil, Nat.zero_add]
      exact h
  | cons t ts ih =>
    intro k s pre rest old hr ht htk
    cases htk with
    | @word bs t rest ts hb hne hnb he hts =>
      have hsc : scanWord (bs ++ (t ++ rest)) 0 [] = (t, byteLen (bs ++ t)) := by
        rw [scanWord_blank _ _ _ hb, scanWord_word t rest _ [] hnb he (.inl hne)]
        simp
      have hp := parseWord_reading hr ht (fun _ => hsc) (by intro h; simp at h; exact absurd h.2.1 hne)
      have hr' := reading_advance (t := s.task) (pre := pre) (a := bs ++ t) (rest := rest)
        (by simpa using hr)
      obtain ⟨n, x, h⟩ := ih k
        ((s.setTask (atPosition s.task (byteLen pre + byteLen (bs ++ t)))).setTkn (some t))
        (pre ++ (bs ++ t)) rest t (by vm_simp; exact hr') rfl hts
      refine ⟨n, x, ?_⟩
      rw [List.length_cons, Nat.add_right_comm]
      vm_simp [readTokens, hp, h]
      rfl

/-- C18. Every text has exactly one sequence of tokens. -/
theorem C18_tokens_unique (text : List Char) :
    ∃ toks, Tokens text toks ∧ ∀ toks', Tokens text toks' → toks' = toks := by
  have split : ∀ text : List Char, ∃ bs rest, text = bs ++ rest ∧ (∀ ch ∈ bs, Blank ch) ∧
      (∀ ch cs, rest = ch :: cs → ¬ Blank ch) := by
    intro text
    induction text with
    | nil => exact ⟨[], [], rfl, by simp, by simp⟩
    | cons c cs ih =>
      by_cases hc : Blank c
      · obtain ⟨bs, rest, h1, h2, h3⟩ := ih
        refine ⟨c :: bs, rest, by rw [h1]; rfl, ?_, h3⟩
        intro ch hch
        simp only [List.mem_cons] at hch
        rcases hch with rfl | hch
        · exact hc
        · exact h2 ch hch
      · refine ⟨[], c :: cs, rfl, by simp, ?_⟩
        intro ch cs' h
        simp only [List.cons.injEq] at h
        rw [← h.1]; exact hc
  have split2 : ∀ text : List Char, ∃ t rest, text = t ++ rest ∧ (∀ ch ∈ t, ¬ Blank ch) ∧
      EndsToken rest := by
    intro text
    induction text with
    | nil => exact ⟨[], [], rfl, by simp, by simp [EndsToken]⟩
    | cons c cs ih =>
      by_cases hc : Blank c
      · refine ⟨[], c :: cs, rfl, by simp, ?_⟩
        intro ch cs' h
        simp only [List.cons.injEq] at h
        rw [← h.1]; exact hc
      · obtain ⟨bs, rest, h1, h2, h3⟩ := ih
        refine ⟨c :: bs, rest, by rw [h1]; rfl, ?_, h3⟩
        intro ch hch
        simp only [List.mem_cons] at hch
        rcases hch with rfl | hch
        · exact hc
        · exact h2 ch hch
  have total : ∀ (n : Nat) (text : List Char), text.length ≤ n → ∃ toks, Tokens text toks := by
    intro n
    induction n with
    | zero =>
      intro text h
      have : text = [] := by cases text <;> simp_all
      subst this
      exact ⟨[], .blank (by simp)⟩
    | succ n ih =>
      intro text h
      obtain ⟨bs, r, h1, h2, h3⟩ := split text
      obtain ⟨t, rest, h4, h5, h6⟩ := split2 r
      cases t with
      | nil =>
        cases r with
        | nil => exact ⟨[], by rw [h1]; simpa using Tokens.blank h2⟩
        | cons c cs =>
          exfalso
          simp only [List.nil_append] at h4
          exact h3 c cs rfl (h6 c cs h4.symm)
      | cons c t =>
        have hlen : rest.length ≤ n := by
          rw [h1, h4] at h; simp at h; omega
        obtain ⟨toks, ht⟩ := ih rest hlen
        exact ⟨(c :: t) :: toks, by rw [h1, h4]; exact .word h2 (by simp) h5 h6 ht⟩
  have nonblank : ∀ bs : List Char, (∀ ch ∈ bs, Blank ch) → ∀ toks, Tokens bs toks → toks = [] := by
    intro bs hb toks ht
    cases ht with
    | blank => rfl
    | @word bs' t rest ts _ hne hnb _ _ =>
      exfalso
      cases t with
      | nil => exact hne rfl
      | cons c t => exact hnb c (by simp) (hb c (by simp))
  have cancel : ∀ (bs bs' u u' : List Char), bs ++ u = bs' ++ u' → (∀ ch ∈ bs, Blank ch) →
      (∀ ch ∈ bs', Blank ch) → (∃ c cs, u = c :: cs ∧ ¬ Blank c) → (∃ c cs, u' = c :: cs ∧ ¬ Blank c) →
      u = u' := by
    intro bs
    induction bs with
    | nil =>
      intro bs' u u' h _ hb' hu hu'
      cases bs' with
      | nil => simpa using h
      | cons c' bs' =>
        obtain ⟨c, cs, rfl, hc⟩ := hu
        simp only [List.nil_append, List.cons_append, List.cons.injEq] at h
        exact absurd (h.1 ▸ hb' c' (by simp)) hc
    | cons b bs ih =>
      intro bs' u u' h hb hb' hu hu'
      cases bs' with
      | nil =>
        obtain ⟨c, cs, rfl, hc⟩ := hu'
        simp only [List.nil_append, List.cons_append, List.cons.injEq] at h
        exact absurd (h.1 ▸ hb b (by simp)) hc
      | cons b' bs' =>
        simp only [List.cons_append, List.cons.injEq] at h
        exact ih bs' u u' h.2 (fun ch hc => hb ch (by simp [hc])) (fun ch hc => hb' ch (by simp [hc]))
          hu hu'
  have cancel2 : ∀ (t t' r r' : List Char), t ++ r = t' ++ r' → (∀ ch ∈ t, ¬ Blank ch) →
      (∀ ch ∈ t', ¬ Blank ch) → EndsToken r → EndsToken r' → t = t' ∧ r = r' := by
    intro t
    induction t with
    | nil =>
      intro t' r r' h _ ht' hr _
      cases t' with
      | nil => exact ⟨rfl, by simpa using h⟩
      | cons c t' =>
        exfalso
        simp only [List.nil_append, List.cons_append] at h
        exact ht' c (by simp) (hr c _ h)
    | cons a t ih =>
      intro t' r r' h ht ht' hr hr'
      cases t' with
      | nil =>
        exfalso
        simp only [List.nil_append, List.cons_append] at h
        exact ht a (by simp) (hr' a _ h.symm)
      | cons c t' =>
        simp only [List.cons_append, List.cons.injEq] at h
        obtain ⟨e1, e2⟩ := ih t' r r' h.2 (fun ch hc => ht ch (by simp [hc]))
          (fun ch hc => ht' ch (by simp [hc])) hr hr'
        exact ⟨by rw [h.1, e1], e2⟩
  have unique : ∀ (text : List Char) (toks : List (List Char)), Tokens text toks →
      ∀ toks', Tokens text toks' → toks' = toks := by
    intro text toks h
    induction h with
    | blank hb => exact nonblank _ hb
    | @word bs t rest ts hb hne hnb he _ ih =>
      intro toks' h'
      generalize hx : bs ++ (t ++ rest) = text at h'
      cases h' with
      | blank hb' =>
        exfalso
        cases t with
        | nil => exact hne rfl
        | cons c t =>
          refine hnb c (by simp) (hb' c ?_)
          rw [← hx]; simp
      | @word bs' t' rest' ts' hb' hne' hnb' he' hts' =>
        have e1 : t ++ rest = t' ++ rest' := by
          apply cancel bs bs' _ _ hx hb hb'
          · cases t with
            | nil => exact absurd rfl hne
            | cons c t => exact ⟨c, _, rfl, hnb c (by simp)⟩
          · cases t' with
            | nil => exact absurd rfl hne'
            | cons c t => exact ⟨c, _, rfl, hnb' c (by simp)⟩
        obtain ⟨e2, e3⟩ := cancel2 t t' rest rest' e1 hnb hnb' he he'
        subst e2; subst e3
        rw [ih ts' hts']
  obtain ⟨toks, ht⟩ := total text.length text (Nat.le_refl _)
  exact ⟨toks, ht, unique text toks ht⟩

example : Tokens " 1  + ".toList ["1".toList, "+".toList] := by
  refine .word (bs := [' ']) (t := ['1']) (rest := [' ', ' ', '+', ' ']) ?_ ?_ ?_ ?_
    (.word (bs := [' ', ' ']) (t := ['+']) (rest := [' ']) ?_ ?_ ?_ ?_ (.blank ?_)) <;>
    simp [Blank, EndsToken]

example : Reading { Task.newTerminal with inbuf := some "déjà vu".toList } [] "déjà vu".toList :=
  ⟨rfl, rfl, by decide⟩

/-! ## C19 -/

/-- C19. `parse` with delimiter code `v` takes the characters up to the first delimiter or the end of
the text as the token, leaves the input position just after the delimiter or at the end, and
pops `v`; nothing else changes. -/
theorem C19_parse (c : Ctx) (s : VM) (pre rest taken after old : List Char) (found : Bool)
    (v : Cell) (l : List Cell) (hr : Reading s.task pre rest) (ht : s.tkn = some old)
    (hi : s.task.s.items = v :: l) (hd : Delimited v rest taken after found) :
    ∃ p, primOf "parse" = some p ∧ ∃ st' n, st'.items = l ∧
      action c p s = .ok ((), { s.setTask { atPosition s.task n with s := st' } with
        tkn := some taken }) ∧
      ∃ pre', pre' ++ after = pre ++ rest ∧ n = byteLen pre' := by
  obtain ⟨st', mid, h1, h2, _, h3⟩ := parse_reading (c := c) hr ht hi hd
  exact ⟨_, rfl, st', _, h2, h3, pre ++ (taken ++ mid), by rw [h1]; simp, rfl⟩

/-- What `(` and `\` do. -/
theorem comment_reading (c : Ctx) (s : VM) (pre rest taken after old : List Char) (found : Bool)
    (v : Cell) (l : List Cell) (hr : Reading s.task pre rest) (ht : s.tkn = some old)
    (hi : s.task.s.items = l) (hl : l.length < 255) (hd : Delimited v rest taken after found) :
    ∃ st' n, st'.items = l ∧
      (do sPush v; parse c : M Unit) s = .ok ((), { s.setTask { atPosition s.task n with s := st' } with
        tkn := some taken }) ∧
      ∃ pre', pre' ++ after = pre ++ rest ∧ n = byteLen pre' := by
  have hrep := items_eq_iff.1 hi
  obtain ⟨st', mid, h1, h2, _, h3⟩ := parse_reading (c := c)
    (s := s.setTask { s.task with s := s.task.s.push v }) (v := v) (l := l)
    (by vm_simp; exact ⟨hr.buffer, hr.position, hr.bounded⟩) (old := old) (by vm_simp [ht])
    (by vm_simp; exact items_eq_iff.2 (hrep.toPush hl v).rep) hd
  refine ⟨st', _, h2, ?_, pre ++ (taken ++ mid), by rw [h1]; simp, rfl⟩
  vm_simp [M.seq_eq, h3, atPosition]
  rfl

/-- C19. `(` skips through the first `)`, or to the end of the text when there is none, whatever the
comment contains: the data stack is as before and the position is just after. -/
theorem C19_paren (c : Ctx) (s : VM) (pre rest taken after old : List Char) (found : Bool)
    (l : List Cell) (hr : Reading s.task pre rest) (ht : s.tkn = some old)
    (hi : s.task.s.items = l) (hl : l.length < 255)
    (hd : Delimited (BitVec.ofNat 64 ')'.toNat) rest taken after found) :
    ∃ p, primOf "(" = some p ∧ ∃ st' n, st'.items = l ∧
      action c p s = .ok ((), { s.setTask { atPosition s.task n with s := st' } with
        tkn := some taken }) ∧
      ∃ pre', pre' ++ after = pre ++ rest ∧ n = byteLen pre' :=
  ⟨_, rfl, comment_reading c s pre rest taken after old found _ l hr ht hi hl hd⟩

/-- C19. `\` skips through the end of the line. -/
theorem C19_backslash (c : Ctx) (s : VM) (pre rest taken after old : List Char) (found : Bool)
    (l : List Cell) (hr : Reading s.task pre rest) (ht : s.tkn = some old)
    (hi : s.task.s.items = l) (hl : l.length < 255)
    (hd : Delimited (BitVec.ofNat 64 '\n'.toNat) rest taken after found) :
    ∃ p, primOf "\\" = some p ∧ ∃ st' n, st'.items = l ∧
      action c p s = .ok ((), { s.setTask { atPosition s.task n with s := st' } with
        tkn := some taken }) ∧
      ∃ pre', pre' ++ after = pre ++ rest ∧ n = byteLen pre' :=
  ⟨_, rfl, comment_reading c s pre rest taken after old found _ l hr ht hi hl hd⟩

/-- Every text is delimited in one way. -/
theorem C19_delimited_total (v : Cell) (rest : List Char) :
    ∃ taken after found, Delimited v rest taken after found := by
  induction rest with
  | nil => exact ⟨[], [], false, by simp, by simp⟩
  | cons ch cs ih =>
    by_cases h : BitVec.ofNat 64 ch.toNat = v
    · exact ⟨[], cs, true, by simp, by simp [h]⟩
    · obtain ⟨taken, after, found, h1, h2⟩ := ih
      refine ⟨ch :: taken, after, found, ?_, ?_⟩
      · intro x hx
        simp only [List.mem_cons] at hx
        rcases hx with rfl | hx
        · exact h
        · exact h1 x hx
      · cases found with
        | true =>
          simp only [if_true] at h2 ⊢
          obtain ⟨d, hd, rfl⟩ := h2
          exact ⟨d, hd, rfl⟩
        | false =>
          simp only [Bool.false_eq_true, if_false] at h2 ⊢
          exact ⟨by rw [h2.1], h2.2⟩

example : Delimited (BitVec.ofNat 64 ')'.toNat) "a comment) 1".toList "a comment".toList
    " 1".toList true :=
  ⟨by decide, ⟨')', rfl, rfl⟩⟩

/-! ### `_skip` -/

theorem countSkip_eq (v : Cell) : ∀ (ds rest : List Char),
    (∀ ch ∈ ds, BitVec.ofNat 64 ch.toNat = v) →
    (∀ ch cs, rest = ch :: cs → BitVec.ofNat 64 ch.toNat ≠ v) →
    countSkip v (ds ++ rest) = ds.length := by
  intro ds
  induction ds with
  | nil =>
    intro rest _ h
    cases rest with
    | nil => rfl
    | cons ch cs => simp [countSkip, h ch cs rfl]
  | cons d ds ih =>
    intro rest h1 h2
    simp only [List.cons_append, countSkip, h1 d (by simp), if_true, List.length_cons]
    rw [ih rest (fun ch hc => h1 ch (by simp [hc])) h2]

theorem ascii_byteLen (v : Cell) (hv : v.toNat < 128) : ∀ ds : List Char,
    (∀ ch ∈ ds, BitVec.ofNat 64 ch.toNat = v) → byteLen ds = ds.length := by
  intro ds
  induction ds with
  | nil => intro _; rfl
  | cons d ds ih =>
    intro h
    have hd := h d (by simp)
    have hlt : d.toNat < 128 := by
      have hv2 := d.valid
      have : (BitVec.ofNat 64 d.toNat).toNat = v.toNat := by rw [hd]
      simp only [BitVec.toNat_ofNat] at this
      have h2 : d.toNat < 2 ^ 64 := by
        have := d.val.toNat_lt
        show d.val.toNat < _
        omega
      rw [Nat.mod_eq_of_lt h2] at this
      omega
    have hsz : d.utf8Size = 1 := by
      simp only [Char.utf8Size]
      rw [if_pos]
      show d.val ≤ 0x7f
      rw [UInt32.le_iff_toNat_le]
      show d.toNat ≤ 127
      omega
    simp only [byteLen, hsz, ih (fun ch hc => h ch (by simp [hc])), List.length_cons]
    omega

theorem countSkip_le (v : Cell) : ∀ rest : List Char, countSkip v rest ≤ byteLen rest := by
  intro rest
  induction rest with
  | nil => simp [countSkip]
  | cons c cs ih =>
    have := utf8Size_pos' c
    simp only [countSkip, byteLen]
    split <;> omega

theorem skip_reading (c : Ctx) (s : VM) (pre rest : List Char) (v : Cell) (l : List Cell)
    (hr : Reading s.task pre rest) (hi : s.task.s.items = v :: l) :
    skip c s = .ok ((), s.setTask { atPosition s.task (byteLen pre + countSkip v rest) with
      s := s.task.s.pop.2 }) := by
  obtain ⟨t, h1, h2, h3, h4, _⟩ := takeInput_ok hr.buffer
  have hother := setInputBuffer_other h1
  have hrep := items_eq_iff.1 hi
  have hpos := hr.position
  have hle : byteLen pre + countSkip v rest < usizeMod := by
    have := hr.bounded
    have := countSkip_le v rest
    simp only [byteLen_append, usizeMod] at *
    omega
  vm_simp [skip, takeInputE, h2, h3, h4, hrep.pop_fst, sourceFrom, hpos, splitAtByte_append,
    uadd_ok hle]
  rw [putInput_back' h1 hr.buffer (by vm_simp) (by vm_simp) (by vm_simp)]
  vm_simp
  have e3 : ({ t with st := { s.task.st with sourceIndex := byteLen pre + countSkip v rest },
                      s := s.task.s.pop.2, lines := s.task.lines, inbuf := s.task.inbuf } : Task) =
      { atPosition s.task (byteLen pre + countSkip v rest) with s := s.task.s.pop.2 } := by
    rw [hother]; simp only [atPosition]
  rw [e3]

/-- C19. `_skip` with an ASCII delimiter moves past exactly the delimiters at the input position.
Missing: other delimiters, where it is false (`C19_skip_refuted`). -/
theorem C19_skip_partial (c : Ctx) (s : VM) (pre ds rest : List Char) (v : Cell) (l : List Cell)
    (hv : v.toNat < 128) (hr : Reading s.task pre (ds ++ rest)) (hi : s.task.s.items = v :: l)
    (hd : ∀ ch ∈ ds, BitVec.ofNat 64 ch.toNat = v)
    (hn : ∀ ch cs, rest = ch :: cs → BitVec.ofNat 64 ch.toNat ≠ v) :
    ∃ p, primOf "_skip" = some p ∧ ∃ st', st'.items = l ∧
      action c p s = .ok ((), s.setTask { atPosition s.task (byteLen (pre ++ ds)) with s := st' }) := by
  refine ⟨_, rfl, s.task.s.pop.2, items_eq_iff.2 (items_eq_iff.1 hi).toPop.rep, ?_⟩
  have h := skip_reading c s pre (ds ++ rest) v l hr hi
  rw [countSkip_eq v ds rest hd hn, ← ascii_byteLen v hv ds hd] at h
  rw [byteLen_append]
  exact h

/-- `parse` at a position that is not between two characters of the text panics. -/
theorem parse_badPosition (c : Ctx) (s : VM) (text old : List Char)
    (hb : inputBuffer s.task = .ok (some text)) (ht : s.tkn = some old)
    (hp : splitAtByte text s.task.st.sourceIndex = none) : parse c s = .error .panic := by
  obtain ⟨t, h1, h2, h3, h4, _⟩ := takeInput_ok hb
  vm_simp [parse, takeInputE, h2, h3]
  rw [takeToken_run (t := old) (by vm_simp [ht])]
  vm_simp [h3, sourceFrom, hp]

/-- C19 fails for `_skip` with a delimiter outside ASCII: it counts characters and adds the count to
a byte offset, leaving the position inside a character, where the next `parse` panics. -/
theorem C19_skip_refuted (c : Ctx) : ∃ s s' : VM, Reading s.task [] "éa".toList ∧
    s.task.s.items = [BitVec.ofNat 64 'é'.toNat] ∧ skip c s = .ok ((), s') ∧
    s'.task.st.sourceIndex = 1 ∧ ∀ v, parse c (withData s' (s'.task.s.push v)) = .error .panic := by
  let s : VM := (VM.blank 4096 4096).setTask { Task.newTerminal with
    inbuf := some "éa".toList, s := (Stack.new cellCanary).push (BitVec.ofNat 64 'é'.toNat) }
  have hr : Reading s.task [] "éa".toList := ⟨rfl, rfl, by decide⟩
  have hi : s.task.s.items = [BitVec.ofNat 64 'é'.toNat] := rfl
  have h := skip_reading c s [] "éa".toList _ [] hr hi
  refine ⟨s, _, hr, hi, h, ?_, ?_⟩
  · vm_simp; rfl
  · intro v
    apply parse_badPosition c _ "éa".toList []
    · vm_simp [withData]; exact hr.buffer
    · vm_simp [withData]; rfl
    · vm_simp [withData]; decide

end Verif
