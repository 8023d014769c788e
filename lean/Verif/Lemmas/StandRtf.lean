import Verif.Lemmas.StandLibrary
import Verif.Spec.Rtf

/-!
# The text of rtf.fth
-/

namespace Verif
open Spec

/-- The text of rtf.fth as character codes. -/
def rtfCodes : List Nat := [
  45, 119, 111, 114, 107, 10, 10, 58, 32, 113, 117, 105, 116, 10, 32, 32, 32, 32, 114, 101, 115, 101, 116, 10, 32,
  32, 32, 32, 98, 101, 103, 105, 110, 32, 114, 101, 99, 101, 105, 118, 101, 32, 46, 34, 32, 32, 34, 32, 101, 118, 97,
  108, 117, 97, 116, 101, 45, 105, 110, 112, 117, 116, 10, 32, 32, 32, 32, 99, 111, 109, 112, 105, 108, 105, 110,
  103, 63, 32, 110, 111, 116, 32, 105, 102, 32, 46, 34, 32, 32, 111, 107, 34, 32, 32, 116, 104, 101, 110, 10, 32, 32,
  32, 32, 49, 51, 32, 101, 109, 105, 116, 32, 102, 108, 117, 115, 104, 45, 111, 117, 116, 112, 117, 116, 10, 32, 32,
  32, 32, 97, 103, 97, 105, 110, 32, 59, 10, 10, 58, 32, 40, 97, 98, 111, 114, 116, 41, 10, 32, 32, 32, 32, 48, 115,
  116, 97, 99, 107, 115, 32, 101, 114, 114, 111, 114, 32, 45, 50, 32, 49, 32, 119, 105, 116, 104, 105, 110, 32, 110,
  111, 116, 32, 105, 102, 10, 32, 32, 32, 32, 32, 32, 46, 116, 111, 107, 101, 110, 32, 115, 112, 97, 99, 101, 32, 46,
  101, 114, 114, 111, 114, 10, 32, 32, 32, 32, 32, 32, 115, 111, 117, 114, 99, 101, 45, 105, 100, 32, 100, 117, 112,
  32, 105, 102, 32, 100, 117, 112, 10, 32, 32, 32, 32, 32, 32, 32, 32, 46, 34, 32, 32, 40, 34, 32, 46, 115, 111, 117,
  114, 99, 101, 45, 112, 97, 116, 104, 10, 32, 32, 32, 32, 32, 32, 32, 32, 46, 34, 32, 58, 34, 32, 32, 108, 111, 97,
  100, 45, 108, 105, 110, 101, 35, 32, 64, 32, 32, 48, 32, 46, 114, 32, 46, 34, 32, 58, 32, 34, 32, 46, 115, 111,
  117, 114, 99, 101, 45, 108, 105, 110, 101, 32, 46, 34, 32, 41, 34, 10, 32, 32, 32, 32, 32, 32, 101, 108, 115, 101,
  32, 100, 114, 111, 112, 10, 32, 32, 32, 32, 32, 32, 116, 104, 101, 110, 10, 32, 32, 32, 32, 32, 32, 46, 34, 32, 44,
  32, 34, 32, 46, 98, 97, 99, 107, 116, 114, 97, 99, 101, 32, 32, 49, 51, 32, 101, 109, 105, 116, 10, 32, 32, 32, 32,
  116, 104, 101, 110, 32, 102, 108, 117, 115, 104, 45, 111, 117, 116, 112, 117, 116, 32, 48, 101, 114, 114, 111, 114,
  32, 113, 117, 105, 116, 32, 59, 10, 10, 92, 32, 67, 111, 108, 100, 32, 115, 116, 97, 114, 116, 10, 58, 32, 99, 111,
  108, 100, 10, 32, 32, 32, 32, 50, 32, 104, 97, 108, 116, 32, 32, 51, 32, 104, 97, 108, 116, 32, 32, 52, 32, 104,
  97, 108, 116, 32, 32, 53, 32, 104, 97, 108, 116, 10, 32, 32, 32, 32, 91, 39, 93, 32, 40, 97, 98, 111, 114, 116, 41,
  32, 104, 97, 110, 100, 108, 101, 114, 33, 10, 32, 32, 32, 32, 101, 118, 97, 108, 117, 97, 116, 101, 45, 105, 110,
  112, 117, 116, 32, 113, 117, 105, 116, 32, 59, 10, 10, 109, 97, 114, 107, 101, 114, 32, 45, 119, 111, 114, 107, 10]

set_option maxRecDepth 1000000 in
theorem rtf_text : rtfFth.toList = spelt rtfCodes := by
  have : rtfFth = String.ofList (rtfCodes.map Char.ofNat) := by
    unfold rtfFth
    exact rfl
  rw [this, String.toList_ofList]
  rfl

set_option maxRecDepth 1000000 in
theorem rtf_ascii : Ascii rtfCodes := asciiB_spec (by decide +kernel)

set_option maxRecDepth 1000000 in
theorem rtf_length : byteLen (spelt rtfCodes) < 2 ^ 32 := by
  have h : rtfCodes.length ≤ 1000 := by decide +kernel
  have := byteLen_le (spelt rtfCodes)
  rw [show (spelt rtfCodes).length = rtfCodes.length from List.length_map ..] at this
  omega

/-- The numbers of the words in the machine of the program rtf. `receive` comes before the words of core.fth. -/
def rtfIx (name : String) : Nat := ([
   ("-rot", 102), ("pick", 103), ("2swap", 106), ("2over", 107), ("depth", 31), ("abs", 110), ("negate", 111),
   ("<>", 99), ("0<>", 97), ("0<", 33), ("and", 37), ("or", 38), ("xor", 39), ("lshift", 40), ("rshift", 41),
   ("mod", 109), (".", 249),
   ("type", 149), ("reset", 130), ("0stacks", 129), ("error", 126), ("within", 100), (".token", 134), (".error", 127),
   (".source-path", 240), (".r", 153), (".source-line", 242), (".backtrace", 158), ("0error", 128), ("receive", 243),
   ("quit", 324), ("(abort)", 325), ("cold", 326), ("handler!", 125), ("halt", 302), ("nod", 301), ("activate", 144),
   ("exit", 2), ("unloop", 12), ("j", 15)].lookup
     name).getD (if imageIx name < 243 then imageIx name else imageIx name + 1)

/-- The built-in words, with `receive`. -/
def recvOutline : Outline := addOne ⟨"receive", .receive, false, false⟩ bootOutline

/-- The programs of rtf.fth that theorems are about. -/
def rtfPrograms (ix : String → Nat) : List (String × Stmt) := replCode ix ++ coldCode ix

/-- The names of the words are those of `rtfWords`. -/
def allNamesB (l : Outline) : Bool :=
  rtfWords.all (fun n => (lookup (keyOf (nameCodes n) 0) l.rows).isSome) &&
  (rtfWords.map fun n => keyOf (nameCodes n) 0) == (l.rows.map (·.key)).reverse

/-- The words of a calculator are there, and not for compiling only. -/
def calcB (ix : String → Nat) (l : Outline) : Bool :=
  calcWords.all fun n => decide (lookup (keyOf (nameCodes n) 0) l.rows = some (ix n)) && match rowAt (ix n) l.rows with
    | some r => !r.co
    | none => false

/-- The words for compiling only. -/
def onlyB (l : Outline) : Bool :=
  compileOnlyWords.all fun n => match lookup (keyOf (nameCodes n) 0) l.rows with
    | some i => match rowAt i l.rows with
      | some r => r.co
      | none => false
    | none => false

/-- The words that definitions are made of. -/
def workshopB (ix : String → Nat) (l : Outline) : Bool :=
  Nat.ble 11496 l.here && Nat.ble l.count 1000 &&
  (calcWords.all fun n => match rowAt (ix n) l.rows with
    | some r => !r.imm && decide (r.comp = .word)
    | none => false) &&
  (structureWords.all fun e => match lookup (keyOf (nameCodes e.1) 0) l.rows with
    | some i => match rowAt i l.rows with
      | some r => r.imm && decide (r.action = .core e.2)
      | none => false
    | none => false) &&
  Nat.beq (ix "exit") bootRefs.exit && namesO ix l loopWords && usesO ix l loopWords &&
  (loopWords.all fun n => match rowAt (ix n) l.rows with
    | some r => !r.imm && (decide (n = "leave") || decide (r.comp = .word))
    | none => false) &&
  match lookup (keyOf (nameCodes ":") 0) l.rows with
    | some i => match rowAt i l.rows with
      | some r => !r.co && decide (r.action = .core .colon)
      | none => false
    | none => false

/-- What rtf.fth defines is there. -/
def rtfB (ix : String → Nat) (l : Outline) : Bool :=
  coreB ix 16 l && namesO ix l rtfNames && usesO ix l replUses && usesO ix l ["activate", "pause", "handler!"] &&
  codedO ix l 0 10696 11496 (replCode ix) && codedO ix l 0 10696 11496 (coldCode ix) && codedO ix l 0 8392 8464 (taskCode ix) &&
  (match rowAt (ix "receive") l.rows with
    | some r => decide (r.action = .receive)
    | none => false) && allNamesB l && calcB ix l && usesO ix l (effects.map (·.1) ++ ["/", "mod", "abort"]) &&
  codedO ix l 0 4176 7048 (dotCode ix) && onlyB l && workshopB ix l

/-- The next thing in the text is the name of a marker made when the outline was `k`. -/
def unmarkStep (k l : Outline) : Option Outline :=
  match takeTok l with
  | some (tok, l1) =>
    if decide (lookup (keyOf tok 0) l.rows = some k.count) && (match rowAt k.count l.rows with
      | some r => !r.co && decide (r.action = .core .unmark)
      | none => false) && decide (l.stack = k.stack)
    then some (k.withText l1.text) else none
  | none => none

/-- The outline when core.fth is loaded, up to its marker. -/
def rtfCore : Option Outline :=
  loadText bootRefs 13 (specsOf (corePrograms rtfIx ++ taskCode rtfIx ++ dotCode rtfIx)) 1000 (recvOutline.withText coreCodes)

def rtfOk : Bool :=
  Nat.ble (roundUp8 (bootOutline.here + 8 + (codesOf (ascii "receive")).length)) outlineRoom &&
  match rtfCore with
  | some l => match markStep coreMark l with
    | some l1 => (skipBlanks l1.text).isEmpty && (match unmarkStep l (l1.withText rtfCodes) with
      | some l2 => match loadText bootRefs 13 (specsOf (rtfPrograms rtfIx)) 1000 l2 with
        | some l3 => match markStep coreMark l3 with
          | some l4 => (skipBlanks l4.text).isEmpty && rtfB rtfIx l4
          | none => false
        | none => false
      | none => false)
    | none => false
  | none => false

set_option maxRecDepth 1000000 in
theorem rtf_ok : rtfOk = true := by decide +kernel

section
variable {G : Ground} {k l l2 : Outline} {s : VM} {cfg : Cfg} {depth : Nat}

theorem unmarkStep_turn (g : G.Ok) (h : Stand G l s) (hW : Waits s) (hM : Marked G k s) (hu : unmarkStep k l = some l2) :
    ∃ t, Leads cfg (depth + 2) s t ∧ Stand G l2 t ∧ Waits t := by
  unfold unmarkStep at hu
  cases ht : takeTok l with
  | none => rw [ht] at hu; cases hu
  | some x =>
    obtain ⟨tok, l1⟩ := x
    rw [ht] at hu
    dsimp only at hu
    obtain ⟨hc, hu⟩ := Option.ite_none_right_eq_some.1 hu
    cases hu
    simp only [Bool.and_eq_true, decide_eq_true_eq] at hc
    obtain ⟨⟨h1, h2⟩, h3⟩ := hc
    cases hr : rowAt k.count l.rows with
    | none => rw [hr] at h2; cases h2
    | some r =>
      rw [hr] at h2
      simp only [Bool.and_eq_true, decide_eq_true_eq, Bool.not_eq_true'] at h2
      exact unmark_turn g h hW hM h3 ht h1 hr h2.1 h2.2

theorem lookup_mem {k i : Nat} : ∀ {rows : List Row}, lookup k rows = some i → k ∈ rows.map (·.key)
  | [], h => by cases h
  | r :: rs, h => by
    rw [lookup] at h
    split at h
    · next hb => simp [Nat.eq_of_beq_eq_true hb]
    · exact List.mem_cons_of_mem _ (lookup_mem h)

theorem Stand.allNames (h : Stand G l s) (hc : allNamesB l = true) : ∀ n, n ∈ rtfWords → ∃ i, Newest s (Verif.ascii n) (some i) := by
  intro n hn
  rw [allNamesB, Bool.and_eq_true] at hc
  obtain ⟨i, hi⟩ := Option.isSome_iff_exists.1 (List.all_eq_true.1 hc.1 n hn)
  have h2 := h.names (Verif.ascii n)
  rw [show keyOf (codesOf (Verif.ascii n)) 0 = keyOf (nameCodes n) 0 from rfl, hi] at h2
  exact ⟨i, h2⟩

theorem Stand.noOthers (h : Stand G l s) (hc : allNamesB l = true) :
    ∀ nm, (∀ n, n ∈ rtfWords → ¬SameName nm (Verif.ascii n)) → Newest s nm none := by
  intro nm hnm
  rw [allNamesB, Bool.and_eq_true] at hc
  have h2 := h.names nm
  cases hi : lookup (keyOf (codesOf nm) 0) l.rows with
  | none => rw [hi] at h2; exact h2
  | some i =>
    have h3 := lookup_mem hi
    rw [← List.mem_reverse, ← beq_iff_eq.1 hc.2, List.mem_map] at h3
    obtain ⟨n, n1, n2⟩ := h3
    exact absurd ((sameName_key nm (Verif.ascii n)).2 n2.symm) (hnm n n1)

theorem Stand.calcs (h : Stand G l s) {ix : String → Nat} (hc : calcB ix l = true) :
    ∀ n, n ∈ calcWords → Newest s (Verif.ascii n) (some (ix n)) ∧ ∃ w, s.wl.words[ix n]? = some w ∧ w.isCompileOnly = false := by
  intro n hn
  have h1 := List.all_eq_true.1 hc n hn
  rw [Bool.and_eq_true, decide_eq_true_eq] at h1
  have h2 := h.names (Verif.ascii n)
  rw [show keyOf (codesOf (Verif.ascii n)) 0 = keyOf (nameCodes n) 0 from rfl, h1.1] at h2
  refine ⟨h2, ?_⟩
  have h3 := h1.2
  split at h3
  case h_2 => cases h3
  rename_i r hr
  obtain ⟨w, w1, w2, -⟩ := h.row hr
  exact ⟨w, w1, by rw [w2.co]; simpa using h3⟩

theorem Stand.only (h : Stand G l s) (hc : onlyB l = true) :
    ∀ n, n ∈ compileOnlyWords → ∃ i w, Newest s (Verif.ascii n) (some i) ∧ s.wl.words[i]? = some w ∧ w.isCompileOnly = true := by
  intro n hn
  have h1 := List.all_eq_true.1 hc n hn
  split at h1
  case h_2 => cases h1
  rename_i i hi
  have h2 := h.names (Verif.ascii n)
  rw [show keyOf (codesOf (Verif.ascii n)) 0 = keyOf (nameCodes n) 0 from rfl, hi] at h2
  split at h1
  case h_2 => cases h1
  rename_i r hr
  obtain ⟨w, w1, w2, -⟩ := h.row hr
  exact ⟨i, w, h2, w1, by rw [w2.co]; exact h1⟩

theorem Stand.workshop (h : Stand G l s) (g : G.Ok) (hR : G.refs = bootRefs) {ix : String → Nat} (hl : ix "leave" = G.lv) (hc : workshopB ix l = true) :
    Workshop G.start ix s := by
  simp only [workshopB, Bool.and_eq_true] at hc
  obtain ⟨⟨⟨⟨⟨⟨⟨⟨c1, c2⟩, c3⟩, c4⟩, c6⟩, c7⟩, c8⟩, c9⟩, c5⟩ := hc
  have h1 := Nat.le_of_ble_eq_true c1
  have h2 := Nat.le_of_ble_eq_true c2
  have h3 : l.here ≤ 12288 := h.room
  refine ⟨by rw [h.here]; omega, by rw [h.here]; omega, by rw [h.count]; exact h2, by rw [hl]; exact h.compiler g,
    by rw [h.refs]; exact g.flit, fun n hn => ?_, fun e he => ?_, by rw [h.refs, hR]; exact Nat.eq_of_beq_eq_true c6,
    fun n hn => ⟨h.named c7 n hn, h.uses c8 n hn, ?_⟩, ?_⟩
  · have k := List.all_eq_true.1 c3 n hn
    split at k
    case h_2 => cases k
    rename_i r hr
    obtain ⟨w, w1, w2, -⟩ := h.row hr
    rw [Bool.and_eq_true, decide_eq_true_eq, Bool.not_eq_true'] at k
    exact ⟨w, w1, by rw [w2.comp]; exact k.2, by rw [w2.imm]; exact k.1⟩
  · have k := List.all_eq_true.1 c4 e he
    have h2 := h.names (Verif.ascii e.1)
    rw [show keyOf (codesOf (Verif.ascii e.1)) 0 = keyOf (nameCodes e.1) 0 from rfl] at h2
    split at k
    case h_2 => cases k
    rename_i i hi
    rw [hi] at h2
    split at k
    case h_2 => cases k
    rename_i r hr
    obtain ⟨w, w1, w2, -⟩ := h.row hr
    rw [Bool.and_eq_true, decide_eq_true_eq] at k
    exact ⟨i, w, h2, w1, by rw [w2.imm]; exact k.1, by rw [w2.action]; exact k.2⟩
  · have k := List.all_eq_true.1 c9 n hn
    split at k
    case h_2 => cases k
    rename_i r hr
    obtain ⟨w, w1, w2, -⟩ := h.row hr
    rw [Bool.and_eq_true, Bool.or_eq_true, decide_eq_true_eq, decide_eq_true_eq, Bool.not_eq_true'] at k
    exact ⟨w, w1, by rw [w2.imm]; exact k.1, fun hne => by rw [w2.comp]; exact k.2.resolve_left hne⟩
  · have k := c5
    have h2 := h.names (Verif.ascii ":")
    rw [show keyOf (codesOf (Verif.ascii ":")) 0 = keyOf (nameCodes ":") 0 from rfl] at h2
    split at k
    case h_2 => cases k
    rename_i i hi
    rw [hi] at h2
    split at k
    case h_2 => cases k
    rename_i r hr
    obtain ⟨w, w1, w2, -⟩ := h.row hr
    rw [Bool.and_eq_true, decide_eq_true_eq, Bool.not_eq_true'] at k
    exact ⟨i, w, h2, w1, by rw [w2.co]; exact k.1, by rw [w2.action]; exact k.2⟩

theorem Stand.rtf (h : Stand G l s) (hW : Waits s) (g : G.Ok) (hlv : G.lv = 13) (hR : G.refs = bootRefs) {ix : String → Nat}
    (hc : rtfB ix l = true) (hrd : l.text = []) : RtfLoaded G.start ix [] s := by
  simp only [rtfB, Bool.and_eq_true] at hc
  obtain ⟨⟨⟨⟨⟨⟨⟨⟨⟨⟨⟨⟨⟨c1, c2⟩, c3⟩, c4⟩, c5⟩, c6⟩, c7⟩, c8⟩, c9⟩, c10⟩, c11⟩, c12⟩, c13⟩, c14⟩ := hc
  have hL := h.loaded hW g hlv hR c1
  have hl : ix "leave" = G.lv := by
    simp only [coreB, Bool.and_eq_true] at c1
    exact (Nat.eq_of_beq_eq_true c1.1.2).trans hlv.symm
  have ha : G.start % 8 = 0 := by have := g.aligned; omega
  have g1 := g.pos
  have g2 := g.small
  have g3 : 12288 ≤ G.cap := g.room
  have s1 := h.start
  have s2 := h.cap
  have hlim := h.limit
  have reg : ∀ lo hi, hi ≤ 12000 → Region s.ds (G.start + lo) (G.start + hi) := fun lo hi hh => ⟨by omega, by omega, by omega⟩
  have hld := hL.loader
  have q5 := h.coded ha c5
  have q6 := h.coded ha c6
  have q7 := h.coded ha c7
  have q8 := h.coded ha c12
  simp only [Nat.add_zero] at q5 q6 q7 q8
  rw [← hl] at q5 q6 q7 q8
  refine ⟨hL, h.named c2, ?_, h.uses c4, ?_, reg _ _ (by decide), q7, q6, h.allNames c9, h.noOthers c9, h.calcs c10, h.uses c11, q8, h.only c13,
    h.steady.cur, h.steady.output, h.steady.source, ?_, ?_, h.workshop g hR hl c14⟩
  · refine ⟨?_, ?_, reg _ _ (by decide), h.uses c3, q5, ?_, by omega, by omega⟩
    · have := hld.saves.equipped
      simp only [Nat.add_assoc] at this
      exact this
    · have := hld.reader
      simp only [Nat.add_assoc] at this
      exact this
    · have := hld.place
      simp only [Nat.add_assoc] at this
      exact this
  · split at c8
    case h_2 => cases c8
    rename_i r hr
    obtain ⟨w, w1, w2, -⟩ := h.row hr
    exact ⟨w, w1, by rw [w2.action]; exact of_decide_eq_true c8⟩
  · obtain ⟨pre, hp⟩ := h.reading
    rw [hrd] at hp
    exact ⟨pre, hp⟩
  · exact List.length_eq_zero_iff.1 hW.2

end

section
variable {G : Ground} {l : Outline} {s : VM}

theorem Stand.flushed (h : Stand G l s) : flushOutput s = .ok ((), s) := by
  simp only [flushOutput, modVM, h.steady.output]
  rfl

theorem mustLoad_ok {cfg : Cfg} {depth fuel : Nat} {text : List Char} {t : VM} (h : loadStr cfg depth fuel text s = .ok ((), t))
    (he : t.lastError = none) : mustLoad cfg depth fuel text s = .ok ((), t) := by
  have e : getError t = .ok (none, t) := by
    show Except.ok (t.lastError, t) = _
    rw [he]
  simp only [mustLoad, bind, M.bind, h, e]
  rfl

end

theorem recv_rest : recvOutline.defs = [] ∧ recvOutline.facts = [] ∧ recvOutline.stack = [] := boot_rest

theorem Built.receive {b cap : Nat} {l : Outline} {s : VM} (h : Built b cap l s) (hb : Site b cap) (c : Ctx)
    (hr : Nat.ble (roundUp8 (l.here + 8 + (codesOf (ascii "receive")).length)) outlineRoom = true) :
    ∃ t, addPrimitive c (ascii "receive") .receive s = .ok ((), t) ∧ t.refs = s.refs ∧
      (∀ i, i < s.wl.words.length → t.wl.words[i]? = s.wl.words[i]?) ∧ Built b cap (addOne ⟨"receive", .receive, false, false⟩ l) t :=
  h.add hb c (by decide) rfl (Nat.le_of_ble_eq_true hr)

/-- The machine of the program rtf when it has been set up. -/
theorem rtf_loads {b cap : Nat} (hb : Site b cap) (cfg : Cfg) (depth : Nat) :
    ∃ s N, (∀ fuel, N ≤ fuel → VM.rtf cfg (depth + 2) fuel b cap = .ok s) ∧ s.ds.start = b ∧ s.ds.cap = cap ∧
      RtfLoaded b rtfIx [] s ∧ s.stdout = [] ∧ s.host.calls = 0 ∧ ∃ line, s.task.inbuf = some line ∧ byteLen line < 2 ^ 32 := by
  obtain ⟨s0, a1, a2, a3⟩ := boot_built hb (ctx cfg (depth + 2))
  have g := boot_ground hb a3
  have hc := rtf_ok
  unfold rtfOk at hc
  rw [Bool.and_eq_true] at hc
  obtain ⟨hroom, hc⟩ := hc
  obtain ⟨sr, p1, p2, p3, p4⟩ := a3.receive hb (ctx cfg (depth + 2)) hroom
  cases hl : rtfCore with
  | none => rw [hl] at hc; cases hc
  | some l =>
  rw [hl] at hc
  dsimp only at hc
  cases hm : markStep coreMark l with
  | none => rw [hm] at hc; cases hc
  | some l1 =>
  rw [hm] at hc
  dsimp only at hc
  rw [Bool.and_eq_true] at hc
  obtain ⟨hbl, hc⟩ := hc
  cases hu : unmarkStep l (l1.withText rtfCodes) with
  | none => rw [hu] at hc; cases hc
  | some l2 =>
  rw [hu] at hc
  dsimp only at hc
  cases hl3 : loadText bootRefs 13 (specsOf (rtfPrograms rtfIx)) 1000 l2 with
  | none => rw [hl3] at hc; cases hc
  | some l3 =>
  rw [hl3] at hc
  dsimp only at hc
  cases hm4 : markStep coreMark l3 with
  | none => rw [hm4] at hc; cases hc
  | some l4 =>
  rw [hm4] at hc
  dsimp only at hc
  rw [Bool.and_eq_true] at hc
  obtain ⟨hbl4, hB⟩ := hc
  obtain ⟨r1, r2, r3⟩ := recv_rest
  have hlen : s0.wl.words.length = outlineBase := g.size
  obtain ⟨t0, b1, b2, b3⟩ := boot_stand hb (l := recvOutline) (s0 := s0) p4 (p2.trans a2) (fun i hi => p3 i (by rw [hlen]; exact hi))
    r1 r2 r3 cfg (depth + 2)
  obtain ⟨t1, ⟨n1, m1, d1⟩, d2, d3⟩ := load_sound (cfg := cfg) (depth := depth) g 1000 b2 b3 hl
  obtain ⟨t2, ⟨n2, m2, e1⟩, e2, e3, e4⟩ := marker_turn (cfg := cfg) (depth := depth) g d2 d3 hm
  obtain ⟨s1, f1, f2, f3, f4, f5⟩ := end_turn (cfg := cfg) (depth := depth + 2) e2 e3 hbl
  obtain ⟨u0, h1, h2, h3, h4, h5⟩ := load_stand (cfg := cfg) (depth := depth + 2) f2 f3 rtf_ascii rtf_length
  obtain ⟨u1, ⟨n3, m3, i1⟩, i2, i3⟩ := unmarkStep_turn (cfg := cfg) (depth := depth) (l := l1.withText rtfCodes) g h2 h3
    (e4.congr (h4.trans f4) (h5.trans f5)) hu
  obtain ⟨u2, ⟨n4, m4, j1⟩, j2, j3⟩ := load_sound (cfg := cfg) (depth := depth) g 1000 i2 i3 hl3
  obtain ⟨u3, ⟨n5, m5, o1⟩, o2, o3, -⟩ := marker_turn (cfg := cfg) (depth := depth) g j2 j3 hm4
  obtain ⟨u4, q1, q2, q3, -⟩ := end_turn (cfg := cfg) (depth := depth + 2) o2 o3 hbl4
  refine ⟨u4, (1 + n2 + n1) + (1 + n5 + n4 + n3), ?_, q2.start, q2.cap, q2.rtf q3 g rfl rfl (l := { l4 with text := [] }) hB rfl,
    q2.steady.stdout, q2.steady.calls, q2.steady.line⟩
  intro fuel hf
  have x1 : loadStr cfg (depth + 2) fuel coreFth.toList sr = .ok ((), s1) := by
    rw [b1]
    obtain ⟨k, rfl⟩ : ∃ k, fuel = k + 1 + n2 + n1 := ⟨fuel - 1 - n2 - n1, by omega⟩
    rw [d1, show k + 1 + n2 + m1 = k + m1 + 1 + n2 by omega, e1, show k + m1 + 1 + m2 = k + m1 + m2 + 1 by omega, f1]
  have x2 : loadStr cfg (depth + 2) fuel rtfFth.toList s1 = .ok ((), u4) := by
    rw [rtf_text, h1]
    obtain ⟨k, rfl⟩ : ∃ k, fuel = k + 1 + n5 + n4 + n3 := ⟨fuel - 1 - n5 - n4 - n3, by omega⟩
    rw [i1, show k + 1 + n5 + n4 + m3 = k + m3 + 1 + n5 + n4 by omega, j1,
      show k + m3 + 1 + n5 + m4 = k + m3 + m4 + 1 + n5 by omega, o1, show k + m3 + m4 + 1 + m5 = k + m3 + m4 + m5 + 1 by omega, q1]
  simp only [VM.rtf, bind, M.bind, a1, p1, mustLoad_ok x1 f2.noError, mustLoad_ok x2 q2.noError, q2.flushed]

end Verif
